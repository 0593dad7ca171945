import Verif.Lemmas.Odds
import Verif.Lemmas.Informed
import Verif.Spec.Crowd
import Mathlib.Logic.Equiv.Fin.Basic
import Mathlib.Logic.Equiv.Prod

/-! # The odds in a network of any number of devices: lemmas (C173) -/

namespace Firefly
open Spec

variable {n K : Nat}

/-! ### One device -/

/-- How many heartbeats reach a device. -/
def beatsIn (plan : List (Luck K) → Slot) : List (Luck K) → Nat
  | [] => 0
  | _ :: l => beatsIn plan l + if (plan l).isBeat then 1 else 0

/-- The device is a master all the time. -/
def masterAll (plan : List (Luck K) → Slot) (tail : Rand) (s₀ : Node) : List (Luck K) → Bool
  | [] => s₀.state = .master
  | ω :: l => masterAll plan tail s₀ l && decide ((missed plan tail s₀ (ω :: l)).2.state = .master)

theorem masterAll_now {plan : List (Luck K) → Slot} {tail : Rand} {s₀ : Node} :
    ∀ {l}, masterAll plan tail s₀ l = true → (missed plan tail s₀ l).2.state = .master
  | [], h => of_decide_eq_true h
  | _ :: _, h => of_decide_eq_true (Bool.and_eq_true_iff.1 h).2

/-- The weight of an outcome, in the first `N` heartbeats. -/
def enduring (N : Nat) (plan : List (Luck K) → Slot) (tail : Rand) (s₀ : Node) (l : List (Luck K)) : Nat :=
  if masterAll plan tail s₀ l then 131066 ^ min (beatsIn plan l) N * 65543 ^ (N - beatsIn plan l) else 0

theorem beat_survives {plan : List (Luck K) → Slot} {tail : Rand} {s₀ : Node} (wf : s₀.WF) {l : List (Luck K)}
    {ω : Luck K} (hm : (missed plan tail s₀ l).2.state = .master) (hb : (plan l).isBeat = true)
    (hm' : (missed plan tail s₀ (ω :: l)).2.state = .master) :
    wins ω.1 ω.2.1 ∨ unheard (missed plan tail s₀ l).2 ω.1 := by
  have wf' := missed_wf (plan := plan) (tail := tail) wf l
  have wf'' : ({ (missed plan tail s₀ l).2 with rand := supply tail ω } : Node).WF :=
    ⟨wf'.idx, wf'.next, wf'.timerNone⟩
  simp only [missed] at hm'
  cases hp : plan l with
  | other op => rw [hp] at hb; cases hb
  | hear now p =>
    rw [hp] at hb hm'
    have hb : p.type = .heartbeat := of_decide_eq_true hb
    split at hm'
    · rename_i e he
      rcases Node.radioTick_result (plat := .arduino) (now := now)
        (rx := some { p with id := BitVec.ofNat 16 (2 + ω.1.val % 65533) }) wf'' with ⟨t, h1, _⟩ | h1 | h1
      · exact absurd (h1.symm.trans he) (by simp)
      · cases h1.1
      · cases h1.1
    · rename_i s' hs
      by_cases hu : unheard (missed plan tail s₀ l).2 ω.1
      · exact .inr hu
      · left
        refine survives_wins (p := { p with id := BitVec.ofNat 16 (2 + ω.1.val % 65533) })
          rfl wf'' rfl hb hm hs ?_ hm'
        rw [heard_tick wf'']
        simp only [Node.delivered]
        rw [if_neg]
        · rfl
        · exact hu

theorem endure_arith {a b c d : Nat} (h4 : a ≤ b + c) (h1 : 2 * b ≤ d) (h5 : c * 65533 ≤ 5 * d) :
    a * 131066 ≤ d * 65543 :=
  calc a * 131066 ≤ (b + c) * 131066 := Nat.mul_le_mul_right _ h4
    _ = 2 * b * 65533 + 2 * (c * 65533) := by ring
    _ ≤ d * 65533 + 2 * (5 * d) := Nat.add_le_add (Nat.mul_le_mul_right _ h1) (Nat.mul_le_mul_left _ h5)
    _ = d * 65543 := by ring

theorem endure_count (hK : EvenDraws K) (s : Node) :
    (Finset.univ.filter fun ω : Luck K => wins ω.1 ω.2.1 ∨ unheard s ω.1).card * 131066 ≤
      Fintype.card (Luck K) * 65543 := by
  have h1 := wins_luck hK
  have h2 := unheard_count hK.ids s
  have h3 : (Finset.univ.filter fun ω : Luck K => unheard s ω.1).card =
      (Finset.univ.filter fun u : Fin K => unheard s u).card * Fintype.card (Fin K × Fin K × Fin K) := by
    rw [Finset.card_filter, Fintype.sum_prod_type, Finset.card_filter, Finset.sum_mul]
    refine Finset.sum_congr rfl fun x _ => ?_
    split <;> simp
  have hc : Fintype.card (Luck K) = K * Fintype.card (Fin K × Fin K × Fin K) := by
    rw [Fintype.card_prod, Fintype.card_fin]
  have h4 : (Finset.univ.filter fun ω : Luck K => wins ω.1 ω.2.1 ∨ unheard s ω.1).card ≤
      (Finset.univ.filter fun ω : Luck K => wins ω.1 ω.2.1).card +
      (Finset.univ.filter fun ω : Luck K => unheard s ω.1).card := by
    rw [Finset.filter_or]; exact Finset.card_union_le _ _
  rw [← Finset.card_filter] at h1
  have h5 : (Finset.univ.filter fun ω : Luck K => unheard s ω.1).card * 65533 ≤ 5 * Fintype.card (Luck K) := by
    rw [h3, hc]
    calc _ = (Finset.univ.filter fun u : Fin K => unheard s u).card * 65533 *
          Fintype.card (Fin K × Fin K × Fin K) := by ring
      _ ≤ 5 * K * Fintype.card (Fin K × Fin K × Fin K) := Nat.mul_le_mul_right _ h2
      _ = _ := by ring
  exact endure_arith h4 h1 h5

theorem enduring_sum_cons (hK : EvenDraws K) (N : Nat) {plan : List (Luck K) → Slot} {tail : Rand} {s₀ : Node}
    (wf : s₀.WF) (l : List (Luck K)) :
    ∑ ω : Luck K, enduring N plan tail s₀ (ω :: l) ≤ Fintype.card (Luck K) * enduring N plan tail s₀ l := by
  by_cases ha : masterAll plan tail s₀ l = true
  swap
  · have : ∀ ω : Luck K, enduring N plan tail s₀ (ω :: l) = 0 := fun ω => by
      rw [enduring, if_neg]
      intro k
      exact ha (Bool.and_eq_true_iff.1 k).1
    simp [this]
  have hw : ∀ ω : Luck K, enduring N plan tail s₀ (ω :: l) ≤
      if (missed plan tail s₀ (ω :: l)).2.state = .master then
        131066 ^ min (beatsIn plan (ω :: l)) N * 65543 ^ (N - beatsIn plan (ω :: l)) else 0 := by
    intro ω
    simp only [enduring, masterAll, ha, Bool.true_and, decide_eq_true_eq]
    exact Nat.le_refl _
  have same : (∀ ω : Luck K, 131066 ^ min (beatsIn plan (ω :: l)) N * 65543 ^ (N - beatsIn plan (ω :: l)) =
      131066 ^ min (beatsIn plan l) N * 65543 ^ (N - beatsIn plan l)) →
      ∑ ω : Luck K, enduring N plan tail s₀ (ω :: l) ≤ Fintype.card (Luck K) * enduring N plan tail s₀ l := by
    intro e
    have : ∀ ω ∈ (Finset.univ : Finset (Luck K)), enduring N plan tail s₀ (ω :: l) ≤ enduring N plan tail s₀ l := by
      intro ω _
      refine Nat.le_trans (hw ω) ?_
      rw [enduring, if_pos ha, e ω]
      split
      · exact Nat.le_refl _
      · exact Nat.zero_le _
    refine Nat.le_trans (Finset.sum_le_sum this) ?_
    rw [Finset.sum_const, Finset.card_univ, nsmul_eq_mul, Nat.cast_id]
  by_cases hb : (plan l).isBeat = true
  · by_cases hN : beatsIn plan l < N
    · have hbc : ∀ ω : Luck K, beatsIn plan (ω :: l) = beatsIn plan l + 1 := fun ω => by
        simp only [beatsIn, hb, if_true]
      have : ∀ ω ∈ (Finset.univ : Finset (Luck K)), enduring N plan tail s₀ (ω :: l) ≤
          (if wins ω.1 ω.2.1 ∨ unheard (missed plan tail s₀ l).2 ω.1 then 1 else 0) *
            (131066 ^ (beatsIn plan l + 1) * 65543 ^ (N - (beatsIn plan l + 1))) := by
        intro ω _
        refine Nat.le_trans (hw ω) ?_
        rw [hbc ω, Nat.min_eq_left (by omega)]
        split
        · rename_i hm'
          rw [if_pos (beat_survives wf (masterAll_now ha) hb hm'), Nat.one_mul]
        · exact Nat.zero_le _
      refine Nat.le_trans (Finset.sum_le_sum this) ?_
      rw [← Finset.sum_mul, ← Finset.card_filter, enduring, if_pos ha, Nat.min_eq_left (by omega),
        show N - beatsIn plan l = N - (beatsIn plan l + 1) + 1 by omega, Nat.pow_succ, Nat.pow_succ]
      generalize 131066 ^ beatsIn plan l = a
      generalize 65543 ^ (N - (beatsIn plan l + 1)) = b
      have := Nat.mul_le_mul_right (a * b) (endure_count hK (missed plan tail s₀ l).2)
      calc _ = (Finset.univ.filter fun ω : Luck K => wins ω.1 ω.2.1 ∨
            unheard (missed plan tail s₀ l).2 ω.1).card * 131066 * (a * b) := by ring
        _ ≤ _ := this
        _ = _ := by ring
    · refine same fun ω => ?_
      simp only [beatsIn, hb, if_true]
      rw [Nat.min_eq_right (by omega), Nat.min_eq_right (by omega), Nat.sub_eq_zero_of_le (by omega),
        Nat.sub_eq_zero_of_le (by omega)]
  · refine same fun ω => ?_
    simp only [beatsIn, hb]
    rfl

theorem enduring_sum (hK : EvenDraws K) (N : Nat) {plan : List (Luck K) → Slot} {tail : Rand} {s₀ : Node}
    (wf : s₀.WF) : ∀ T, ∑ w : Fin T → Luck K, enduring N plan tail s₀ (List.ofFn w) ≤
      65543 ^ N * Fintype.card (Luck K) ^ T
  | 0 => by
    simp only [enduring, List.ofFn_zero, beatsIn]
    split <;> simp
  | T + 1 => by
    rw [← (Fin.consEquiv fun _ => Luck K).sum_comp, Fintype.sum_prod_type, Finset.sum_comm]
    simp only [Fin.consEquiv, Equiv.coe_fn_mk, List.ofFn_cons]
    calc _ ≤ ∑ w : Fin T → Luck K, Fintype.card (Luck K) * enduring N plan tail s₀ (List.ofFn w) :=
          Finset.sum_le_sum fun w _ => enduring_sum_cons hK N wf _
      _ = Fintype.card (Luck K) * ∑ w : Fin T → Luck K, enduring N plan tail s₀ (List.ofFn w) := by
          rw [Finset.mul_sum]
      _ ≤ Fintype.card (Luck K) * (65543 ^ N * Fintype.card (Luck K) ^ T) :=
          Nat.mul_le_mul_left _ (enduring_sum hK N wf T)
      _ = _ := by ring

open Classical in
theorem enduring_odds (hK : EvenDraws K) {plan : List (Luck K) → Slot} {tail : Rand} {s₀ : Node}
    (wf : s₀.WF) (T N : Nat) :
    (Finset.univ.filter fun w : Fin T → Luck K =>
        masterAll plan tail s₀ (List.ofFn w) = true ∧ N ≤ beatsIn plan (List.ofFn w)).card * 131066 ^ N ≤
      65543 ^ N * Fintype.card (Fin T → Luck K) := by
  rw [Fintype.card_fun, Fintype.card_fin]
  refine Nat.le_trans ?_ (enduring_sum hK N (plan := plan) (tail := tail) wf T)
  rw [Finset.card_filter, Finset.sum_mul]
  refine Finset.sum_le_sum fun w _ => ?_
  split
  · rename_i h
    rw [enduring, if_pos h.1, Nat.min_eq_right h.2, Nat.sub_eq_zero_of_le h.2, Nat.one_mul, Nat.pow_zero,
      Nat.mul_one]
  · simp

/-! ### One device among others -/

/-- The draws of the other devices. -/
abbrev Rest (n K : Nat) (i : Fin n) := {j : Fin n // j ≠ i} → Fin K × Fin K × Fin K

/-- A round is the luck of one device and the draws of the others. -/
def throwEquiv (i : Fin n) : Throw n K ≃ Luck K × Rest n K i where
  toFun x := (x.for i, fun j => x.2 j)
  invFun y := (y.1.1, fun j => if h : j = i then y.1.2 else y.2 ⟨j, h⟩)
  left_inv x := by
    refine Prod.ext rfl (funext fun j => ?_)
    by_cases h : j = i
    · subst h; simp [Throw.for]
    · simp [h]
  right_inv y := by
    refine Prod.ext (Prod.ext rfl ?_) (funext fun j => ?_)
    · simp [Throw.for]
    · simp [j.2]

/-- All rounds are the lucks of one device and the draws of the others. -/
def throwsEquiv (T : Nat) (i : Fin n) : (Fin T → Throw n K) ≃ (Fin T → Rest n K i) × (Fin T → Luck K) where
  toFun w := (fun k j => (w k).2 j, fun k => (w k).for i)
  invFun y := fun k => (throwEquiv i).symm (y.2 k, y.1 k)
  left_inv w := funext fun k => (throwEquiv i).left_inv (w k)
  right_inv y := by
    refine Prod.ext (funext fun k => ?_) (funext fun k => ?_)
    · exact congrArg Prod.snd ((throwEquiv i).right_inv (y.2 k, y.1 k))
    · exact congrArg Prod.fst ((throwEquiv i).right_inv (y.2 k, y.1 k))

open Classical in
theorem crowd_count (i : Fin n) {A B T : Nat} {E : (Fin T → Throw n K) → Prop}
    {E' : (Fin T → Rest n K i) → (Fin T → Luck K) → Prop}
    (imp : ∀ w, E w → E' (fun k j => (w k).2 j) (fun k => (w k).for i))
    (h : ∀ o, (Finset.univ.filter fun v => E' o v).card * A ≤ B * Fintype.card (Fin T → Luck K)) :
    (Finset.univ.filter fun w => E w).card * A ≤ B * Fintype.card (Fin T → Throw n K) := by
  have h1 : (Finset.univ.filter fun w => E w).card ≤
      ∑ o : Fin T → Rest n K i, (Finset.univ.filter fun v => E' o v).card := by
    calc _ ≤ (Finset.univ.filter fun w : Fin T → Throw n K =>
            E' (fun k j => (w k).2 j) (fun k => (w k).for i)).card :=
          Finset.card_le_card fun w hw => by
            rw [Finset.mem_filter] at hw ⊢
            exact ⟨hw.1, imp w hw.2⟩
      _ = ∑ w : Fin T → Throw n K, if E' (throwsEquiv T i w).1 (throwsEquiv T i w).2 then 1 else 0 := by
          rw [Finset.card_filter]; rfl
      _ = ∑ y : (Fin T → Rest n K i) × (Fin T → Luck K), if E' y.1 y.2 then 1 else 0 :=
          (throwsEquiv T i).sum_comp fun y => if E' y.1 y.2 then 1 else 0
      _ = _ := by
          rw [Fintype.sum_prod_type]
          exact Finset.sum_congr rfl fun o _ => (Finset.card_filter _ _).symm
  have hc : Fintype.card (Fin T → Throw n K) =
      Fintype.card (Fin T → Rest n K i) * Fintype.card (Fin T → Luck K) := by
    rw [Fintype.card_congr (throwsEquiv T i), Fintype.card_prod]
  calc _ ≤ (∑ o : Fin T → Rest n K i, (Finset.univ.filter fun v => E' o v).card) * A := Nat.mul_le_mul_right _ h1
    _ = ∑ o : Fin T → Rest n K i, (Finset.univ.filter fun v => E' o v).card * A := Finset.sum_mul _ _ _
    _ ≤ ∑ _o : Fin T → Rest n K i, B * Fintype.card (Fin T → Luck K) := Finset.sum_le_sum fun o _ => h o
    _ = _ := by
      rw [Finset.sum_const, Finset.card_univ, nsmul_eq_mul, Nat.cast_id, hc]
      ring

/-- The rounds in which the device `i` has the lucks `l` and the others draw `o`. -/
def rebuild {T : Nat} (i : Fin n) (o : Fin T → Rest n K i) : List (Luck K) → List (Throw n K)
  | [] => []
  | ω :: l =>
    (throwEquiv i).symm (ω, if h : T - 1 - l.length < T then o ⟨T - 1 - l.length, h⟩ else fun _ => ω.2) ::
      rebuild i o l

theorem rebuild_suffix {T : Nat} (i : Fin n) (w : Fin T → Throw n K) : ∀ l, l <:+ List.ofFn w →
    rebuild i (fun k j => (w k).2 j) (l.map fun x => x.for i) = l
  | [], _ => rfl
  | x :: l, h => by
    have h' : l <:+ List.ofFn w := (List.suffix_cons x l).trans h
    obtain ⟨a, ha⟩ := h
    have hlen : a.length + (l.length + 1) = T := by
      have := congrArg List.length ha
      simpa using this
    have hx : T - 1 - l.length < T := by omega
    have e : w ⟨T - 1 - l.length, hx⟩ = x := by
      have h1 : (List.ofFn w)[T - 1 - l.length]? = some x := by
        rw [← ha, List.getElem?_append_right (by omega)]
        have : T - 1 - l.length - a.length = 0 := by omega
        rw [this]; rfl
      rw [List.getElem?_ofFn, dif_pos hx] at h1
      exact Option.some.inj h1
    simp only [List.map_cons, rebuild, List.length_map]
    rw [rebuild_suffix i w l h', dif_pos hx, e]
    exact congrArg (· :: l) ((throwEquiv i).left_inv x)

theorem rebuild_for (i : Fin n) (ω : Luck K) (r : Rest n K i) :
    ((throwEquiv i).symm (ω, r)).for i = ω :=
  congrArg Prod.fst ((throwEquiv i).right_inv (ω, r))

/-- What happens to the device `i`; a device that does nothing is told the number of effects that it has. -/
def solo {T : Nat} (plan : List (Throw n K) → Fin n → Option Slot) (tail : Rand) (s₀ : Fin n → Node) (i : Fin n)
    (t : Nat) (o : Fin T → Rest n K i) (l : List (Luck K)) : Slot :=
  match plan (rebuild i o l) i with
  | some slot => slot
  | none => .other (.setNumEffects (BitVec.ofNat 32 (lastReachedIn plan i t (rebuild i o l)))
      (crowd plan tail s₀ (rebuild i o l) i).numEffects)

/-- A step that the device takes, or would crash in. -/
def lived (tail : Rand) (ω : Luck K) (slot : Slot) (s : Node) : Node :=
  match (slot.anyOp ω).step .arduino { s with rand := supply tail ω } with
  | .error _ => { s with rand := supply tail ω }
  | .ok s' => s'

theorem missed_lived (plan : List (Luck K) → Slot) (tail : Rand) (s₀ : Node) (ω : Luck K) (l : List (Luck K)) :
    (missed plan tail s₀ (ω :: l)).2 = lived tail ω (plan l) (missed plan tail s₀ l).2 := by
  simp only [missed, lived]
  split <;> rename_i h <;> rw [h]

theorem crowd_lived {plan : List (Throw n K) → Fin n → Option Slot} (tail : Rand) (s₀ : Fin n → Node)
    (ω : Throw n K) {l : List (Throw n K)} {i : Fin n} {slot : Slot} (h : plan l i = some slot) :
    crowd plan tail s₀ (ω :: l) i = lived tail (ω.for i) slot (crowd plan tail s₀ l i) := by
  simp only [crowd, lived]
  rw [h]
  rfl

theorem crowd_idle {plan : List (Throw n K) → Fin n → Option Slot} (tail : Rand) (s₀ : Fin n → Node)
    (ω : Throw n K) {l : List (Throw n K)} {i : Fin n} (h : plan l i = none) :
    crowd plan tail s₀ (ω :: l) i = { crowd plan tail s₀ l i with rand := supply tail (ω.for i) } := by
  simp only [crowd]
  rw [h]

theorem missed_solo {T : Nat} (plan : List (Throw n K) → Fin n → Option Slot) (tail : Rand) (s₀ : Fin n → Node)
    (i : Fin n) (t : Nat) (o : Fin T → Rest n K i) : ∀ l,
    (missed (solo plan tail s₀ i t o) tail (s₀ i) l).2 = crowd plan tail s₀ (rebuild i o l) i
  | [] => rfl
  | ω :: l => by
    rw [missed_lived, missed_solo plan tail s₀ i t o l, rebuild]
    cases h : plan (rebuild i o l) i with
    | none =>
      rw [crowd_idle _ _ _ h, rebuild_for]
      simp only [solo, h]
      rfl
    | some slot =>
      rw [crowd_lived _ _ _ h, rebuild_for]
      simp only [solo, h]

theorem beatsIn_solo {T : Nat} (plan : List (Throw n K) → Fin n → Option Slot) (tail : Rand) (s₀ : Fin n → Node)
    (i : Fin n) (t : Nat) (o : Fin T → Rest n K i) : ∀ l,
    beatsIn (solo plan tail s₀ i t o) l = beatsTo plan i (rebuild i o l)
  | [] => rfl
  | ω :: l => by
    simp only [beatsIn, rebuild, beatsTo]
    rw [beatsIn_solo plan tail s₀ i t o l]
    cases h : plan (rebuild i o l) i <;> simp only [solo, h] <;> rfl

theorem reached_solo {T : Nat} (plan : List (Throw n K) → Fin n → Option Slot) (tail : Rand) (s₀ : Fin n → Node)
    (i : Fin n) (t : Nat) (o : Fin T → Rest n K i) : ∀ l,
    reached (solo plan tail s₀ i t o) l = reachedIn plan i (rebuild i o l)
  | [] => rfl
  | ω :: l => by
    simp only [reached, rebuild, reachedIn]
    rw [reached_solo plan tail s₀ i t o l]
    cases h : plan (rebuild i o l) i <;> simp only [solo, h] <;> rfl

theorem lastReached_solo {T : Nat} (plan : List (Throw n K) → Fin n → Option Slot) (tail : Rand)
    (s₀ : Fin n → Node) (i : Fin n) (t : Nat) (o : Fin T → Rest n K i) : ∀ l,
    lastReached (solo plan tail s₀ i t o) t l = lastReachedIn plan i t (rebuild i o l)
  | [] => rfl
  | ω :: l => by
    simp only [lastReached, rebuild, lastReachedIn]
    rw [lastReached_solo plan tail s₀ i t o l]
    cases h : plan (rebuild i o l) i with
    | none => simp only [solo, h]
    | some slot =>
      simp only [solo, h]
      cases slot <;> rfl

theorem informedIn_last {plan : List (Throw n K) → Fin n → Option Slot} {i : Fin n} {t : Nat}
    (h : InformedIn plan i t) (ht : t + 255000 < 2 ^ 32) : ∀ l, lastReachedIn plan i t l + 255000 < 2 ^ 32
  | [] => ht
  | _ :: l => by
    have ih := informedIn_last h ht l
    simp only [lastReachedIn]
    split
    · rename_i now p hp
      exact h.clock l _ hp
    · exact ih

theorem informedIn_solo {T : Nat} {plan : List (Throw n K) → Fin n → Option Slot} {tail : Rand}
    {s₀ : Fin n → Node} {i : Fin n} {t : Nat} {o : Fin T → Rest n K i} (h : InformedIn plan i t)
    (ht : t + 255000 < 2 ^ 32) : KeptInformed (solo plan tail s₀ i t o) t := by
  have hn : ∀ l, (BitVec.ofNat 32 (lastReachedIn plan i t l)).toNat = lastReachedIn plan i t l := fun l =>
    Nat.mod_eq_of_lt (Nat.lt_of_le_of_lt (Nat.le_add_right _ _) (informedIn_last h ht l))
  refine ⟨?_, ?_, ?_, ?_, ?_⟩
  · intro l now p hp
    simp only [Firefly.solo] at hp
    split at hp
    · rename_i slot hs
      exact h.sign _ _ _ (hs.trans (congrArg some hp))
    · cases hp
  · intro l
    rw [lastReached_solo]
    simp only [Firefly.solo]
    split
    · rename_i slot hs
      exact h.after _ _ hs
    · exact Nat.le_of_eq (hn _).symm
  · intro l
    rw [lastReached_solo]
    simp only [Firefly.solo]
    split
    · rename_i slot hs
      exact h.soon _ _ hs
    · exact Nat.le_trans (Nat.le_of_eq (hn _)) (Nat.le_add_right _ _)
  · intro l
    simp only [Firefly.solo]
    split
    · rename_i slot hs
      exact h.clock _ _ hs
    · exact Nat.lt_of_le_of_lt (Nat.le_of_eq (congrArg (· + 255000) (hn _))) (informedIn_last h ht _)
  · intro l now p hp
    simp only [Firefly.solo] at hp
    split at hp
    · rename_i slot hs
      exact h.proper _ _ _ (hs.trans (congrArg some hp))
    · cases hp

theorem masterAll_of {plan : List (Luck K) → Slot} {tail : Rand} {s₀ : Node} : ∀ {l},
    (∀ l', l' <:+ l → (missed plan tail s₀ l').2.state = .master) → masterAll plan tail s₀ l = true
  | [], h => decide_eq_true (h [] (List.suffix_refl _))
  | ω :: l, h => Bool.and_eq_true_iff.2
    ⟨masterAll_of fun l' hl => h l' (hl.trans (List.suffix_cons ω l)), decide_eq_true (h _ (List.suffix_refl _))⟩

open Classical in
theorem any_count {T A B : Nat} {E : Fin n → (Fin T → Throw n K) → Prop} (S : Finset (Fin n))
    (h : ∀ i ∈ S, (Finset.univ.filter fun w => E i w).card * A ≤ B * Fintype.card (Fin T → Throw n K)) :
    (Finset.univ.filter fun w => ∃ i ∈ S, E i w).card * A ≤ S.card * B * Fintype.card (Fin T → Throw n K) := by
  have h1 : (Finset.univ.filter fun w => ∃ i ∈ S, E i w) ⊆
      S.biUnion fun i => Finset.univ.filter fun w => E i w := by
    intro w hw
    obtain ⟨i, hi, hE⟩ := (Finset.mem_filter.1 hw).2
    exact Finset.mem_biUnion.2 ⟨i, hi, Finset.mem_filter.2 ⟨Finset.mem_univ _, hE⟩⟩
  calc _ ≤ (∑ i ∈ S, (Finset.univ.filter fun w => E i w).card) * A :=
        Nat.mul_le_mul_right _ ((Finset.card_le_card h1).trans Finset.card_biUnion_le)
    _ = ∑ i ∈ S, (Finset.univ.filter fun w => E i w).card * A := Finset.sum_mul _ _ _
    _ ≤ ∑ _i ∈ S, B * Fintype.card (Fin T → Throw n K) := Finset.sum_le_sum h
    _ = _ := by
      rw [Finset.sum_const, nsmul_eq_mul, Nat.cast_id]
      ring

end Firefly
