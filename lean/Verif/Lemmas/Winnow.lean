import Verif.Lemmas.Crowd
import Verif.Spec.Winnow

/-! # Several masters become one: lemmas (C174) -/

namespace Firefly
open Spec

variable {n K : Nat}

/-! ### One step of one device -/

theorem lived_missed (tail : Rand) (ω : Luck K) (slot : Slot) (s : Node) :
    lived tail ω slot s = (missed (fun _ => slot) tail s [ω]).2 :=
  (missed_lived (fun _ => slot) tail s ω []).symm

theorem lived_wf {tail : Rand} {ω : Luck K} {slot : Slot} {s : Node} (wf : s.WF) : (lived tail ω slot s).WF := by
  rw [lived_missed]
  exact missed_wf wf _

theorem lived_survives {tail : Rand} {ω : Luck K} {slot : Slot} {s : Node} (wf : s.WF) (hm : s.state = .master)
    (hb : slot.isBeat = true) (hm' : (lived tail ω slot s).state = .master) :
    wins ω.1 ω.2.1 ∨ unheard s ω.1 := by
  rw [lived_missed] at hm'
  exact beat_survives (plan := fun _ => slot) (l := []) wf hm hb hm'

/-- A master stays one if no heartbeat and no claim reaches it. -/
theorem tick_keeps_master {s s' : Node} (wf : s.WF) (hm : s.state = .master) {now : U32} {rx : Option Packet}
    (hrx : ∀ p, rx = some p → p.type ≠ .heartbeat ∧ p.type ≠ .claimMaster)
    (h : s.radioTick .arduino now rx = .ok s') : s'.state = .master := by
  have hd : ∀ p, s.delivered rx = some p → p.type ≠ .heartbeat ∧ p.type ≠ .claimMaster := by
    intro p hp
    refine hrx p ?_
    cases rx with
    | none => simp [Node.delivered] at hp
    | some q =>
      simp only [Node.delivered] at hp
      split at hp
      · cases hp
      · exact hp
  cases Node.radioTick_cases wf h
  case electionLost p hp _ ht _ => exact absurd ht (hd p hp).1
  case masterClaim p hp _ ht => exact absurd ht (hd p hp).2
  all_goals first
    | exact hm
    | rfl

theorem lived_keeps_master {tail : Rand} {ω : Luck K} {slot : Slot} {s : Node} (wf : s.WF)
    (hm : s.state = .master)
    (hq : ∀ p, slot.packet = some p → p.type ≠ .heartbeat ∧ p.type ≠ .claimMaster) :
    (lived tail ω slot s).state = .master := by
  have wf' : ({ s with rand := supply tail ω } : Node).WF := ⟨wf.idx, wf.next, wf.timerNone⟩
  simp only [lived]
  split
  · exact hm
  · rename_i s' hs
    cases slot with
    | hear now p =>
      refine tick_keeps_master wf' hm ?_ hs
      intro q hqq
      have := hq p rfl
      rw [← Option.some.inj hqq]
      exact this
    | other op =>
      cases op with
      | radioTick now rx => exact tick_keeps_master wf' hm (fun p hp => hq p hp) hs
      | setEffect now p =>
        simp only [Slot.anyOp, Op.step] at hs
        rw [Node.setEffect_eq wf'.idx] at hs
        split at hs
        · cases hs
        · cases hs; exact hm
      | setNumPalettes now n => cases hs; exact hm
      | setNumEffects now n => cases hs; exact hm
      | endTick now => cases hs; exact hm

/-! ### The network -/

theorem crowd_wf {plan : List (Throw n K) → Fin n → Option Slot} {tail : Rand} {s₀ : Fin n → Node}
    (wf : ∀ i, (s₀ i).WF) (i : Fin n) : ∀ l, (crowd plan tail s₀ l i).WF
  | [] => wf i
  | ω :: l => by
    have ih := crowd_wf (plan := plan) (tail := tail) wf i l
    cases h : plan l i with
    | none =>
      rw [crowd_idle _ _ _ h]
      exact ⟨ih.idx, ih.next, ih.timerNone⟩
    | some slot =>
      rw [crowd_lived _ _ _ h]
      exact lived_wf ih

theorem some_master {plan : List (Throw n K) → Fin n → Option Slot} {tail : Rand} {s₀ : Fin n → Node}
    (wf : ∀ i, (s₀ i).WF) {l : List (Throw n K)} (h : OneUndisturbed plan tail s₀ l) (ω : Throw n K) :
    ∃ m, MasterAt plan tail s₀ (ω :: l) m := by
  obtain ⟨m, hm, hq⟩ := h
  refine ⟨m, ?_⟩
  show (crowd plan tail s₀ (ω :: l) m).state = .master
  cases hp : plan l m with
  | none =>
    rw [crowd_idle _ _ _ hp]
    exact hm
  | some slot =>
    rw [crowd_lived _ _ _ hp]
    exact lived_keeps_master (crowd_wf wf m l) hm fun p => hq slot p hp

open Classical in
theorem endure_count_throw (hK : EvenDraws K) (i : Fin n) (s : Node) :
    (Finset.univ.filter fun ω : Throw n K => wins (ω.for i).1 (ω.for i).2.1 ∨ unheard s (ω.for i).1).card * 131066 ≤
      Fintype.card (Throw n K) * 65543 := by
  have h : (Finset.univ.filter fun ω : Throw n K => wins (ω.for i).1 (ω.for i).2.1 ∨ unheard s (ω.for i).1).card =
      (Finset.univ.filter fun ω : Luck K => wins ω.1 ω.2.1 ∨ unheard s ω.1).card * Fintype.card (Rest n K i) := by
    rw [Finset.card_filter]
    have := (throwEquiv (K := K) i).sum_comp fun y => if wins y.1.1 y.1.2.1 ∨ unheard s y.1.1 then 1 else 0
    refine this.trans ?_
    rw [Fintype.sum_prod_type, Finset.card_filter, Finset.sum_mul]
    refine Finset.sum_congr rfl fun ω _ => ?_
    refine (Finset.sum_const (s := Finset.univ)
      (if wins ω.1 ω.2.1 ∨ unheard s ω.1 then 1 else 0 : Nat)).trans ?_
    rw [Finset.card_univ, nsmul_eq_mul, Nat.cast_id, Nat.mul_comm]
  have hc : Fintype.card (Throw n K) = Fintype.card (Luck K) * Fintype.card (Rest n K i) := by
    rw [Fintype.card_congr (throwEquiv (K := K) i), Fintype.card_prod]
  rw [h, hc]
  have := Nat.mul_le_mul_right (Fintype.card (Rest n K i)) (endure_count hK s)
  calc _ = (Finset.univ.filter fun ω : Luck K => wins ω.1 ω.2.1 ∨ unheard s ω.1).card * 131066 *
        Fintype.card (Rest n K i) := by ring
    _ ≤ Fintype.card (Luck K) * 65543 * Fintype.card (Rest n K i) := by convert this
    _ = _ := by ring

section
variable (plan : List (Throw n K) → Fin n → Option Slot) (tail : Rand) (s₀ : Fin n → Node)

open Classical in
/-- The devices that have been masters all the time. -/
noncomputable def lastingSet (l : List (Throw n K)) : Finset (Fin n) :=
  Finset.univ.filter fun i => ∀ l', l' <:+ l → MasterAt plan tail s₀ l' i

end

theorem mem_lastingSet {plan : List (Throw n K) → Fin n → Option Slot} {tail : Rand} {s₀ : Fin n → Node}
    {l : List (Throw n K)} {i : Fin n} :
    i ∈ lastingSet plan tail s₀ l ↔ ∀ l', l' <:+ l → MasterAt plan tail s₀ l' i := by
  classical
  simp [lastingSet]

theorem lastingMasters_eq (plan : List (Throw n K) → Fin n → Option Slot) (tail : Rand) (s₀ : Fin n → Node)
    (l : List (Throw n K)) : lastingMasters plan tail s₀ l = (lastingSet plan tail s₀ l).card := rfl

theorem lastingSet_cons (plan : List (Throw n K) → Fin n → Option Slot) (tail : Rand) (s₀ : Fin n → Node)
    (ω : Throw n K) (l : List (Throw n K)) : lastingSet plan tail s₀ (ω :: l) ⊆ lastingSet plan tail s₀ l := by
  intro i hi
  rw [mem_lastingSet] at hi ⊢
  exact fun l' hl => hi l' (hl.trans (List.suffix_cons ω l))

theorem lastingMasters_cons (plan : List (Throw n K) → Fin n → Option Slot) (tail : Rand) (s₀ : Fin n → Node)
    (ω : Throw n K) (l : List (Throw n K)) :
    lastingMasters plan tail s₀ (ω :: l) ≤ lastingMasters plan tail s₀ l :=
  Finset.card_le_card (lastingSet_cons plan tail s₀ ω l)

theorem lastingMasters_nil (plan : List (Throw n K) → Fin n → Option Slot) (tail : Rand) (s₀ : Fin n → Node) :
    lastingMasters plan tail s₀ [] = mastersAmong s₀ := by
  rw [lastingMasters_eq, mastersAmong]
  congr 1
  ext i
  rw [mem_lastingSet]
  simp only [List.suffix_nil, forall_eq, Finset.mem_filter, Finset.mem_univ, true_and]
  exact Iff.rfl

/-- A heartbeat that reaches all other masters leaves, on average, hardly more than half of the others. -/
theorem beat_halves (hK : EvenDraws K) {plan : List (Throw n K) → Fin n → Option Slot} {tail : Rand}
    {s₀ : Fin n → Node} (wf : ∀ i, (s₀ i).WF) {l : List (Throw n K)} (hb : BeatToAll plan tail s₀ l) :
    (∑ ω : Throw n K, (lastingMasters plan tail s₀ (ω :: l) - 1)) * 131066 ≤
      (lastingMasters plan tail s₀ l - 1) * (Fintype.card (Throw n K) * 65543) := by
  classical
  by_cases hne : (lastingSet plan tail s₀ l).Nonempty
  swap
  · have h0 : ∀ ω : Throw n K, lastingMasters plan tail s₀ (ω :: l) - 1 = 0 := fun ω => by
      have := lastingMasters_cons plan tail s₀ ω l
      rw [lastingMasters_eq plan tail s₀ l, Finset.not_nonempty_iff_eq_empty.1 hne, Finset.card_empty] at this
      omega
    simp [h0]
  obtain ⟨m, _, hall⟩ := hb
  obtain ⟨e, he, hem⟩ : ∃ e ∈ lastingSet plan tail s₀ l, ∀ i ∈ lastingSet plan tail s₀ l, i ≠ e → i ≠ m := by
    by_cases hm : m ∈ lastingSet plan tail s₀ l
    · exact ⟨m, hm, fun i _ h => h⟩
    · obtain ⟨e, he⟩ := hne
      exact ⟨e, he, fun i hi _ k => hm (k ▸ hi)⟩
  have step : ∀ ω : Throw n K, lastingMasters plan tail s₀ (ω :: l) - 1 ≤
      ∑ i ∈ (lastingSet plan tail s₀ l).erase e,
        if wins (ω.for i).1 (ω.for i).2.1 ∨ unheard (crowd plan tail s₀ l i) (ω.for i).1 then 1 else 0 := by
    intro ω
    rw [← Finset.card_filter, lastingMasters_eq, Nat.sub_le_iff_le_add]
    refine Nat.le_trans (Finset.card_le_card (t := insert e _) ?_) (Finset.card_insert_le _ _)
    intro i hi
    by_cases hie : i = e
    · rw [hie]; exact Finset.mem_insert_self _ _
    · refine Finset.mem_insert_of_mem (Finset.mem_filter.2 ⟨?_, ?_⟩)
      · exact Finset.mem_erase.2 ⟨hie, lastingSet_cons plan tail s₀ ω l hi⟩
      · have hil := lastingSet_cons plan tail s₀ ω l hi
        have hm1 := mem_lastingSet.1 hil l (List.suffix_refl _)
        have hm2 := mem_lastingSet.1 hi _ (List.suffix_refl _)
        obtain ⟨now, p, hp, ht⟩ := hall i (hem i hil hie) hm1
        have hm2 : (lived tail (ω.for i) (.hear now p) (crowd plan tail s₀ l i)).state = .master := by
          rw [← crowd_lived tail s₀ ω hp]; exact hm2
        have hbt : (Slot.hear now p).isBeat = true := decide_eq_true ht
        exact lived_survives (crowd_wf wf i l) hm1 hbt hm2
  calc _ ≤ (∑ ω : Throw n K, ∑ i ∈ (lastingSet plan tail s₀ l).erase e,
          if wins (ω.for i).1 (ω.for i).2.1 ∨ unheard (crowd plan tail s₀ l i) (ω.for i).1 then 1 else 0) * 131066 :=
        Nat.mul_le_mul_right _ (Finset.sum_le_sum fun ω _ => step ω)
    _ = ∑ i ∈ (lastingSet plan tail s₀ l).erase e, (Finset.univ.filter fun ω : Throw n K =>
          wins (ω.for i).1 (ω.for i).2.1 ∨ unheard (crowd plan tail s₀ l i) (ω.for i).1).card * 131066 := by
        rw [Finset.sum_comm, Finset.sum_mul]
        refine Finset.sum_congr rfl fun i _ => ?_
        rw [Finset.card_filter]
    _ ≤ ∑ _i ∈ (lastingSet plan tail s₀ l).erase e, Fintype.card (Throw n K) * 65543 :=
        Finset.sum_le_sum fun i _ => by convert endure_count_throw hK i (crowd plan tail s₀ l i)
    _ = _ := by
        rw [Finset.sum_const, Finset.card_erase_of_mem he, nsmul_eq_mul, Nat.cast_id, lastingMasters_eq]

/-- The number of masters that are too many, weighed by the rounds to come. -/
noncomputable def lasting (R : Nat) (plan : List (Throw n K) → Fin n → Option Slot) (tail : Rand)
    (s₀ : Fin n → Node) (l : List (Throw n K)) : Nat :=
  (lastingMasters plan tail s₀ l - 1) *
    (131066 ^ min (beatRounds plan tail s₀ l) R * 65543 ^ (R - beatRounds plan tail s₀ l))

theorem lasting_sum_cons (hK : EvenDraws K) (R : Nat) {plan : List (Throw n K) → Fin n → Option Slot} {tail : Rand}
    {s₀ : Fin n → Node} (wf : ∀ i, (s₀ i).WF) (l : List (Throw n K)) :
    ∑ ω : Throw n K, lasting R plan tail s₀ (ω :: l) ≤ Fintype.card (Throw n K) * lasting R plan tail s₀ l := by
  have same : (∀ ω : Throw n K,
      131066 ^ min (beatRounds plan tail s₀ (ω :: l)) R * 65543 ^ (R - beatRounds plan tail s₀ (ω :: l)) =
      131066 ^ min (beatRounds plan tail s₀ l) R * 65543 ^ (R - beatRounds plan tail s₀ l)) →
      ∑ ω : Throw n K, lasting R plan tail s₀ (ω :: l) ≤
        Fintype.card (Throw n K) * lasting R plan tail s₀ l := by
    intro e
    have : ∀ ω ∈ (Finset.univ : Finset (Throw n K)),
        lasting R plan tail s₀ (ω :: l) ≤ lasting R plan tail s₀ l := by
      intro ω _
      rw [lasting, lasting, e ω]
      have := lastingMasters_cons plan tail s₀ ω l
      exact Nat.mul_le_mul_right _ (by omega)
    refine Nat.le_trans (Finset.sum_le_sum this) ?_
    rw [Finset.sum_const, Finset.card_univ, nsmul_eq_mul, Nat.cast_id]
  by_cases hb : BeatToAll plan tail s₀ l
  · by_cases hN : beatRounds plan tail s₀ l < R
    · have hbc : ∀ ω : Throw n K, beatRounds plan tail s₀ (ω :: l) = beatRounds plan tail s₀ l + 1 := fun ω => by
        rw [beatRounds, if_pos hb]
      have e : ∀ ω ∈ (Finset.univ : Finset (Throw n K)), lasting R plan tail s₀ (ω :: l) =
          (lastingMasters plan tail s₀ (ω :: l) - 1) *
            (131066 ^ (beatRounds plan tail s₀ l + 1) * 65543 ^ (R - (beatRounds plan tail s₀ l + 1))) := by
        intro ω _
        rw [lasting, hbc ω, Nat.min_eq_left (by omega)]
      rw [Finset.sum_congr rfl e, ← Finset.sum_mul, lasting, Nat.min_eq_left (by omega),
        show R - beatRounds plan tail s₀ l = R - (beatRounds plan tail s₀ l + 1) + 1 by omega, Nat.pow_succ,
        Nat.pow_succ]
      generalize 131066 ^ beatRounds plan tail s₀ l = a
      generalize 65543 ^ (R - (beatRounds plan tail s₀ l + 1)) = b
      have := Nat.mul_le_mul_right (a * b) (beat_halves hK wf hb)
      calc _ = (∑ ω : Throw n K, (lastingMasters plan tail s₀ (ω :: l) - 1)) * 131066 * (a * b) := by ring
        _ ≤ _ := this
        _ = _ := by ring
    · refine same fun ω => ?_
      rw [beatRounds, if_pos hb, Nat.min_eq_right (by omega), Nat.min_eq_right (by omega),
        Nat.sub_eq_zero_of_le (by omega), Nat.sub_eq_zero_of_le (by omega)]
  · refine same fun ω => ?_
    rw [beatRounds, if_neg hb]
    rfl

/-- A quantity that does not grow on average. -/
theorem sum_of_step {P : List (Throw n K) → Nat}
    (h : ∀ l, ∑ ω : Throw n K, P (ω :: l) ≤ Fintype.card (Throw n K) * P l) :
    ∀ T, ∑ w : Fin T → Throw n K, P (List.ofFn w) ≤ P [] * Fintype.card (Throw n K) ^ T
  | 0 => by
    have : ∀ w : Fin 0 → Throw n K, P (List.ofFn w) ≤ P [] := fun w => by rw [List.ofFn_zero]
    refine (Finset.sum_le_sum fun w _ => this w).trans ?_
    rw [Finset.sum_const, Finset.card_univ, nsmul_eq_mul, Nat.cast_id, Nat.mul_comm, Fintype.card_fun,
      Fintype.card_fin]
  | T + 1 => by
    rw [← (Fin.consEquiv fun _ => Throw n K).sum_comp, Fintype.sum_prod_type, Finset.sum_comm]
    simp only [Fin.consEquiv, Equiv.coe_fn_mk, List.ofFn_cons]
    calc _ ≤ ∑ w : Fin T → Throw n K, Fintype.card (Throw n K) * P (List.ofFn w) :=
          Finset.sum_le_sum fun w _ => h _
      _ = Fintype.card (Throw n K) * ∑ w : Fin T → Throw n K, P (List.ofFn w) := by
          rw [Finset.mul_sum]
      _ ≤ Fintype.card (Throw n K) * (P [] * Fintype.card (Throw n K) ^ T) :=
          Nat.mul_le_mul_left _ (sum_of_step h T)
      _ = _ := by ring

open Classical in
theorem lasting_odds (hK : EvenDraws K) {plan : List (Throw n K) → Fin n → Option Slot} {tail : Rand}
    {s₀ : Fin n → Node} (wf : ∀ i, (s₀ i).WF) (T R : Nat) :
    (Finset.univ.filter fun w : Fin T → Throw n K =>
        2 ≤ lastingMasters plan tail s₀ (List.ofFn w) ∧ R ≤ beatRounds plan tail s₀ (List.ofFn w)).card *
          131066 ^ R ≤
      (mastersAmong s₀ - 1) * 65543 ^ R * Fintype.card (Fin T → Throw n K) := by
  rw [Fintype.card_fun, Fintype.card_fin]
  have := sum_of_step (lasting_sum_cons hK R (plan := plan) (tail := tail) wf) T
  rw [lasting, lastingMasters_nil, beatRounds, Nat.zero_min, Nat.pow_zero, Nat.one_mul, Nat.sub_zero] at this
  refine Nat.le_trans ?_ this
  rw [Finset.card_filter, Finset.sum_mul]
  refine Finset.sum_le_sum fun w _ => ?_
  split
  · rename_i h
    rw [lasting, Nat.min_eq_right h.2, Nat.sub_eq_zero_of_le h.2, Nat.pow_zero, Nat.mul_one]
    exact Nat.mul_le_mul_right _ (by omega)
  · simp

/-- The masters that are too many pay for the rounds in which they were, after the first `R`. -/
noncomputable def contest (R : Nat) (plan : List (Throw n K) → Fin n → Option Slot) (tail : Rand)
    (s₀ : Fin n → Node) (l : List (Throw n K)) : Nat :=
  (lastingMasters plan tail s₀ l - 1) * 131066 *
      (131066 ^ min (contested plan tail s₀ l) R * 65543 ^ (R - contested plan tail s₀ l)) +
    (contested plan tail s₀ l - R) * 65523 * 131066 ^ R

theorem contest_arith {x a b c p q : Nat} (h : x ≤ a * (c * p)) (h2 : 1 ≤ a) :
    x + c * ((b + 1) * q) ≤ c * (a * (p + q) + b * q) :=
  calc x + c * ((b + 1) * q) ≤ a * (c * p) + c * ((b + 1) * q) := Nat.add_le_add_right h _
    _ = 1 * (c * q) + (a * (c * p) + c * (b * q)) := by ring
    _ ≤ a * (c * q) + (a * (c * p) + c * (b * q)) := Nat.add_le_add_right (Nat.mul_le_mul_right _ h2) _
    _ = _ := by ring

theorem contest_early {x a c p q u v : Nat} (h : x * q ≤ a * (c * p)) :
    x * q * (u * q * v) ≤ c * (a * q * (u * (v * p))) :=
  calc x * q * (u * q * v) ≤ a * (c * p) * (u * q * v) := Nat.mul_le_mul_right _ h
    _ = _ := by ring

theorem contest_late {x a b c p q u : Nat} (h : x ≤ a * (c * p)) (h2 : 1 ≤ a) :
    x * u + c * ((b + 1) * q * u) ≤ c * (a * (p + q) * u + b * q * u) :=
  calc x * u + c * ((b + 1) * q * u) = (x + c * ((b + 1) * q)) * u := by ring
    _ ≤ c * (a * (p + q) + b * q) * u := Nat.mul_le_mul_right _ (contest_arith h h2)
    _ = _ := by ring

theorem contest_sum_cons (hK : EvenDraws K) (R : Nat) {plan : List (Throw n K) → Fin n → Option Slot} {tail : Rand}
    {s₀ : Fin n → Node} (wf : ∀ i, (s₀ i).WF) (l : List (Throw n K)) :
    ∑ ω : Throw n K, contest R plan tail s₀ (ω :: l) ≤ Fintype.card (Throw n K) * contest R plan tail s₀ l := by
  have hsum : ∀ c, (∀ ω : Throw n K, contested plan tail s₀ (ω :: l) = c) →
      ∑ ω : Throw n K, contest R plan tail s₀ (ω :: l) =
        (∑ ω : Throw n K, (lastingMasters plan tail s₀ (ω :: l) - 1)) * 131066 *
            (131066 ^ min c R * 65543 ^ (R - c)) +
          Fintype.card (Throw n K) * ((c - R) * 65523 * 131066 ^ R) := by
    intro c hc
    simp only [contest, hc]
    rw [Finset.sum_add_distrib, ← Finset.sum_mul, ← Finset.sum_mul, Finset.sum_const, Finset.card_univ,
      nsmul_eq_mul, Nat.cast_id]
  by_cases hb : BeatToAll plan tail s₀ l ∧ 2 ≤ lastingMasters plan tail s₀ l
  · rw [hsum _ fun ω => by rw [contested, if_pos hb], contest]
    have h := beat_halves hK wf hb.1
    have h2 : 1 ≤ lastingMasters plan tail s₀ l - 1 := by omega
    by_cases hR : contested plan tail s₀ l < R
    · rw [Nat.min_eq_left (by omega), Nat.min_eq_left (by omega), Nat.sub_eq_zero_of_le (by omega : _ + 1 ≤ R),
        Nat.sub_eq_zero_of_le (by omega : contested plan tail s₀ l ≤ R), Nat.zero_mul, Nat.mul_zero,
        Nat.add_zero, Nat.add_zero,
        show R - contested plan tail s₀ l = R - (contested plan tail s₀ l + 1) + 1 by omega, Nat.pow_succ,
        Nat.pow_succ]
      exact contest_early h
    · rw [Nat.min_eq_right (by omega), Nat.min_eq_right (by omega), Nat.sub_eq_zero_of_le (by omega : R ≤ _ + 1),
        Nat.sub_eq_zero_of_le (by omega : R ≤ contested plan tail s₀ l), Nat.pow_zero, Nat.mul_one,
        show contested plan tail s₀ l + 1 - R = contested plan tail s₀ l - R + 1 by omega]
      exact contest_late h h2
  · rw [hsum _ fun ω => by rw [contested, if_neg hb, Nat.add_zero], contest, Nat.mul_add]
    refine Nat.add_le_add_right ?_ _
    have : ∑ ω : Throw n K, (lastingMasters plan tail s₀ (ω :: l) - 1) ≤
        ∑ _ω : Throw n K, (lastingMasters plan tail s₀ l - 1) :=
      Finset.sum_le_sum fun ω _ => by
        have := lastingMasters_cons plan tail s₀ ω l
        omega
    rw [Finset.sum_const, Finset.card_univ, nsmul_eq_mul, Nat.cast_id] at this
    have := Nat.mul_le_mul_right
      (131066 ^ min (contested plan tail s₀ l) R * 65543 ^ (R - contested plan tail s₀ l))
      (Nat.mul_le_mul_right 131066 this)
    rwa [Nat.mul_assoc (Fintype.card (Throw n K)), Nat.mul_assoc (Fintype.card (Throw n K))] at this

theorem contested_sum (hK : EvenDraws K) {plan : List (Throw n K) → Fin n → Option Slot} {tail : Rand}
    {s₀ : Fin n → Node} (wf : ∀ i, (s₀ i).WF) (T R : Nat) :
    (∑ w : Fin T → Throw n K, (contested plan tail s₀ (List.ofFn w) - R)) * 65523 * 131066 ^ R ≤
      (mastersAmong s₀ - 1) * 131066 * 65543 ^ R * Fintype.card (Fin T → Throw n K) := by
  rw [Fintype.card_fun, Fintype.card_fin]
  have := sum_of_step (contest_sum_cons hK R (plan := plan) (tail := tail) wf) T
  rw [contest, lastingMasters_nil, contested, Nat.zero_min, Nat.pow_zero, Nat.one_mul, Nat.sub_zero, Nat.zero_sub,
    Nat.zero_mul, Nat.add_zero] at this
  refine Nat.le_trans ?_ this
  rw [Finset.sum_mul, Finset.sum_mul]
  refine Finset.sum_le_sum fun w _ => ?_
  rw [contest]
  exact Nat.le_add_left _ _

end Firefly
