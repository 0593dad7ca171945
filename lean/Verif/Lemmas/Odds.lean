import Verif.Spec.Odds
import Verif.Lemmas.History
import Mathlib.Algebra.BigOperators.Ring.Finset
import Mathlib.Algebra.Order.BigOperators.Group.Finset
import Mathlib.Algebra.BigOperators.Fin
import Mathlib.Logic.Equiv.Fin.Basic
import Mathlib.Tactic.Ring

/-! # The odds of an election: lemmas -/

namespace Firefly
open Spec

section
variable {K : Nat}

/-- The draws with which a master that hears a heartbeat stays the master. -/
def wins (u v : Fin K) : Prop := 2 + u.val % 65533 < 1 + v.val % 65534

instance (u v : Fin K) : Decidable (wins u v) := inferInstanceAs (Decidable (_ < _))

/-- A losing outcome for each winning one. -/
def swapDraws (x : Fin K × Fin K) : Fin K × Fin K :=
  (⟨(x.1.val / 65533 * 65533 + (x.2.val % 65534 - 2)) % K, Nat.mod_lt _ (by have := x.1.isLt; omega)⟩,
   ⟨(x.2.val / 65534 * 65534 + x.1.val % 65533) % K, Nat.mod_lt _ (by have := x.1.isLt; omega)⟩)

theorem swap_nat {u v : Nat} (hK : EvenDraws K) (hu : u < K) (hv : v < K)
    (h : 2 + u % 65533 < 1 + v % 65534) :
    (u / 65533 * 65533 + (v % 65534 - 2)) % K = u / 65533 * 65533 + (v % 65534 - 2) ∧
    (v / 65534 * 65534 + u % 65533) % K = v / 65534 * 65534 + u % 65533 := by
  obtain ⟨-, ⟨m, rfl⟩, ⟨m', hm'⟩⟩ := hK
  constructor <;> apply Nat.mod_eq_of_lt <;> omega

theorem swap_wins (hK : EvenDraws K) {x : Fin K × Fin K} (h : wins x.1 x.2) :
    ¬ wins (swapDraws x).1 (swapDraws x).2 := by
  obtain ⟨⟨u, hu⟩, v, hv⟩ := x
  simp only [wins, swapDraws] at h ⊢
  obtain ⟨h1, h2⟩ := swap_nat hK hu hv h
  rw [h1, h2]
  omega

theorem swap_inj (hK : EvenDraws K) {x y : Fin K × Fin K} (hx : wins x.1 x.2)
    (hy : wins y.1 y.2) (h : swapDraws x = swapDraws y) : x = y := by
  obtain ⟨⟨u, hu⟩, v, hv⟩ := x
  obtain ⟨⟨u', hu'⟩, v', hv'⟩ := y
  simp only [wins, swapDraws, Prod.mk.injEq, Fin.mk.injEq] at hx hy h ⊢
  obtain ⟨h1, h2⟩ := swap_nat hK hu hv hx
  obtain ⟨h3, h4⟩ := swap_nat hK hu' hv' hy
  rw [h1, h2, h3, h4] at h
  omega

theorem wins_half (hK : EvenDraws K) :
    2 * (Finset.univ.filter (fun x : Fin K × Fin K => wins x.1 x.2)).card ≤
      Fintype.card (Fin K × Fin K) := by
  have h1 := Finset.card_filter_add_card_filter_not (s := (Finset.univ : Finset (Fin K × Fin K)))
    (fun x => wins x.1 x.2)
  have h2 : (Finset.univ.filter (fun x : Fin K × Fin K => wins x.1 x.2)).card ≤
      (Finset.univ.filter (fun x : Fin K × Fin K => ¬ wins x.1 x.2)).card := by
    apply Finset.card_le_card_of_injOn swapDraws
    · intro x hx
      simp only [Finset.coe_filter, Finset.mem_univ, true_and, Set.mem_ofPred_eq] at hx ⊢
      exact swap_wins hK hx
    · intro x hx y hy
      simp only [Finset.coe_filter, Finset.mem_univ, true_and, Set.mem_ofPred_eq] at hx hy
      exact swap_inj hK hx hy
  rw [Finset.card_univ] at h1
  omega


theorem survives_wins {plat : Platform} (hplat : plat = .arduino) {s s' : Node} (wf : s.WF) {now : U32}
    {p : Packet} {u : Nat} (hid : p.id = BitVec.ofNat 16 (2 + u % 65533)) (hp : p.type = .heartbeat)
    (hm : s.state = .master) (h : Op.step plat (.radioTick now (some p)) s = .ok s')
    (hh : (Entry.heard ⟨s, .radioTick now (some p), s'⟩).isSome) (hm' : s'.state = .master) :
    2 + u % 65533 < 1 + s.rand 0 % 65534 := by
  rw [heard_tick wf] at hh
  have hd : s.delivered (some p) = some p := by
    cases e : s.delivered (some p) with
    | none => rw [e] at hh; cases hh
    | some q =>
      simp only [Node.delivered] at e
      split at e
      · cases e
      · exact e.symm
  subst hplat
  cases Node.radioTick_cases wf h with
  | electionWon q hq _ _ he =>
    rw [hd] at hq
    cases hq
    rw [hid, BitVec.lt_def, electionId, BitVec.toNat_ofNat, BitVec.toNat_ofNat] at he
    omega
  | electionLost => simp [Node.afterBeginSlave] at hm'
  | slaveQuiet e | masterQuiet e | takeOver e | beat e | change e | «repeat» e =>
    rw [hd] at e; cases e
  | slaveHeartbeat q e hs | slaveClaim q e hs | slaveEffect q e hs | slaveControl q e hs =>
    rw [hm] at hs; cases hs
  | other q _ _ e ht => rw [hd] at e; cases e; rw [hp] at ht; cases ht
  | masterClaim q e _ ht | masterEffect q e _ ht | masterControl q e _ ht =>
    rw [hd] at e; cases e; rw [hp] at ht; cases ht

/-- The weight of an outcome in the count. -/
def oddsWeight (plan : List (Luck K) → Slot) (tail : Rand) (s₀ : Node) (l : List (Luck K)) : Nat :=
  match staysMaster plan tail s₀ l with
  | none => 0
  | some (k, _) => 2 ^ k

theorem staysMaster_wf {plan : List (Luck K) → Slot} {tail : Rand} {s₀ : Node} (wf : s₀.WF) :
    ∀ {l k s}, staysMaster plan tail s₀ l = some (k, s) → s.WF ∧ s.state = .master := by
  intro l
  induction l with
  | nil =>
    intro k s h
    simp only [staysMaster] at h
    split at h
    · rename_i hm; cases h; exact ⟨wf, hm⟩
    · cases h
  | cons ω l ih =>
    intro k s h
    simp only [staysMaster] at h
    split at h
    · cases h
    · rename_i k₀ s₁ e
      split at h
      · cases h
      · rename_i s' hs
        split at h
        · rename_i hm
          cases h
          have wf₁ := (ih e).1
          exact ⟨Node.step_wf (s := { s₁ with rand := supply tail ω }) ⟨wf₁.idx, wf₁.next, wf₁.timerNone⟩ hs,
            hm.1⟩
        · cases h

theorem oddsWeight_cons {plan : List (Luck K) → Slot} {tail : Rand} {s₀ : Node} (wf : s₀.WF)
    (l : List (Luck K)) (ω : Luck K) :
    oddsWeight plan tail s₀ (ω :: l) ≤
      match plan l with
      | .hear _ _ => if wins ω.1 ω.2.1 then 2 * oddsWeight plan tail s₀ l else 0
      | .other _ => oddsWeight plan tail s₀ l := by
  cases e : staysMaster plan tail s₀ l with
  | none => simp [oddsWeight, staysMaster, e]
  | some x =>
    obtain ⟨k, s⟩ := x
    obtain ⟨wf₁, hm⟩ := staysMaster_wf wf e
    have wf₂ : ({ s with rand := supply tail ω } : Node).WF := ⟨wf₁.idx, wf₁.next, wf₁.timerNone⟩
    simp only [oddsWeight, e]
    cases e' : staysMaster plan tail s₀ (ω :: l) with
    | none => exact Nat.zero_le _
    | some x =>
      obtain ⟨k', s'⟩ := x
      simp only [staysMaster, e] at e'
      split at e'
      · cases e'
      · rename_i s'' hs
        split at e'
        · rename_i hc
          cases e'
          cases hp : plan l with
          | other op => simp [Slot.beats]
          | hear now p =>
            rw [hp] at hs hc
            have := survives_wins (p := { p with type := .heartbeat, id := BitVec.ofNat 16 (2 + ω.1.val % 65533) })
              rfl wf₂ rfl rfl hm hs (hc.2 rfl) hc.1
            have hw : wins ω.1 ω.2.1 := this
            simp only [Slot.beats, if_pos hw, Nat.pow_succ]
            omega
        · cases e'

theorem wins_luck (hK : EvenDraws K) :
    2 * (∑ ω : Luck K, if wins ω.1 ω.2.1 then 1 else 0) ≤ Fintype.card (Luck K) := by
  have h := wins_half hK
  rw [Finset.card_filter] at h
  have e : ∀ x y : Fin K, (∑ _z : Fin K × Fin K, if wins x y then 1 else 0) =
      (if wins x y then 1 else 0) * Fintype.card (Fin K × Fin K) := by
    intro x y; split <;> simp
  have e' : (∑ ω : Luck K, if wins ω.1 ω.2.1 then 1 else 0) =
      (∑ x : Fin K × Fin K, if wins x.1 x.2 then 1 else 0) * Fintype.card (Fin K × Fin K) := by
    rw [Fintype.sum_prod_type, Fintype.sum_prod_type, Finset.sum_mul]
    refine Finset.sum_congr rfl fun x _ => ?_
    rw [Fintype.sum_prod_type, Finset.sum_mul]
    exact Finset.sum_congr rfl fun y _ => e x y
  rw [e', ← Nat.mul_assoc]
  refine Nat.le_trans (Nat.mul_le_mul_right _ h) (Nat.le_of_eq ?_)
  simp only [Fintype.card_prod]
  ring

theorem oddsWeight_sum_cons (hK : EvenDraws K) {plan : List (Luck K) → Slot} {tail : Rand} {s₀ : Node}
    (wf : s₀.WF) (l : List (Luck K)) :
    ∑ ω : Luck K, oddsWeight plan tail s₀ (ω :: l) ≤
      Fintype.card (Luck K) * oddsWeight plan tail s₀ l := by
  refine Nat.le_trans (Finset.sum_le_sum fun ω _ => oddsWeight_cons wf l ω) ?_
  cases plan l with
  | other op => simp
  | hear now p =>
    simp only
    have h : ∀ ω : Luck K, (if wins ω.1 ω.2.1 then 2 * oddsWeight plan tail s₀ l else 0) =
        (2 * oddsWeight plan tail s₀ l) * (if wins ω.1 ω.2.1 then 1 else 0) := by
      intro ω; split <;> simp
    rw [Finset.sum_congr rfl fun ω _ => h ω, ← Finset.mul_sum]
    have := Nat.mul_le_mul_left (oddsWeight plan tail s₀ l) (wins_luck hK)
    calc _ = oddsWeight plan tail s₀ l * (2 * ∑ ω : Luck K, if wins ω.1 ω.2.1 then 1 else 0) := by ring
      _ ≤ _ := this
      _ = _ := by ring

theorem oddsWeight_sum (hK : EvenDraws K) {plan : List (Luck K) → Slot} {tail : Rand} {s₀ : Node}
    (wf : s₀.WF) : ∀ n, ∑ w : Fin n → Luck K, oddsWeight plan tail s₀ (List.ofFn w) ≤
      Fintype.card (Luck K) ^ n
  | 0 => by
    simp only [oddsWeight, List.ofFn_zero, staysMaster]
    split
    · simp
    · rename_i h; split at h <;> cases h; simp
  | n + 1 => by
    rw [← (Fin.consEquiv fun _ => Luck K).sum_comp, Fintype.sum_prod_type, Finset.sum_comm]
    simp only [Fin.consEquiv, Equiv.coe_fn_mk, List.ofFn_cons]
    calc _ ≤ ∑ w : Fin n → Luck K, Fintype.card (Luck K) * oddsWeight plan tail s₀ (List.ofFn w) :=
          Finset.sum_le_sum fun w _ => oddsWeight_sum_cons hK wf _
      _ = Fintype.card (Luck K) * ∑ w : Fin n → Luck K, oddsWeight plan tail s₀ (List.ofFn w) := by
          rw [Finset.mul_sum]
      _ ≤ Fintype.card (Luck K) * Fintype.card (Luck K) ^ n :=
          Nat.mul_le_mul_left _ (oddsWeight_sum hK wf n)
      _ = _ := by ring

/-! ### Uniform remainders -/

/-- If `n` divides `K`, the remainders of the numbers below `K` are uniform. -/
theorem uniform_sum {n : Nat} (hn : n ∣ K) (f : Nat → Nat) :
    (∑ u : Fin K, f (u.val % n)) * n = K * ∑ x ∈ Finset.range n, f x := by
  obtain ⟨m, rfl⟩ := hn
  rw [Nat.mul_comm n m, ← finProdFinEquiv.sum_comp, Fintype.sum_prod_type]
  have h : ∀ x : Fin m, (∑ y : Fin n, f ((finProdFinEquiv (x, y)).val % n)) =
      ∑ y ∈ Finset.range n, f y := by
    intro x
    rw [Finset.sum_range]
    refine Finset.sum_congr rfl fun y _ => ?_
    have : (finProdFinEquiv (x, y)).val = y.val + n * x.val := rfl
    rw [this, Nat.add_mul_mod_self_left, Nat.mod_eq_of_lt y.isLt]
  rw [Finset.sum_congr rfl fun x _ => h x, Finset.sum_const, Finset.card_univ, Fintype.card_fin,
    nsmul_eq_mul, Nat.cast_id]
  ring

theorem uniform_mod {n : Nat} (hn : n ∣ K) (P : Nat → Prop) [DecidablePred P] :
    (Finset.univ.filter fun u : Fin K => P (u.val % n)).card * n =
      ((Finset.range n).filter P).card * K := by
  rw [Finset.card_filter, Finset.card_filter, uniform_sum hn fun x => if P x then 1 else 0]
  ring

/-- Two draws are uniform and independent. -/
theorem uniform_two {n m : Nat} (hn : n ∣ K) (hm : m ∣ K) (Q : Nat → Nat → Prop)
    [∀ a b, Decidable (Q a b)] :
    (Finset.univ.filter fun x : Fin K × Fin K => Q (x.1.val % n) (x.2.val % m)).card * (n * m) =
      ((Finset.range n ×ˢ Finset.range m).filter fun x => Q x.1 x.2).card * (K * K) := by
  rw [Finset.card_filter, Finset.card_filter, Fintype.sum_prod_type, Finset.sum_product]
  have h1 : ∀ x : Fin K, (∑ y : Fin K, if Q (x.val % n) (y.val % m) then 1 else 0) * m =
      K * ∑ b ∈ Finset.range m, if Q (x.val % n) b then 1 else 0 := fun x =>
    uniform_sum hm fun b => if Q (x.val % n) b then 1 else 0
  have h2 := uniform_sum hn fun a => ∑ b ∈ Finset.range m, if Q a b then 1 else 0
  calc _ = (∑ x : Fin K, (∑ y : Fin K, if Q (x.val % n) (y.val % m) then 1 else 0) * m) * n := by
        rw [← Finset.sum_mul]; ring
    _ = K * ((∑ x : Fin K, ∑ b ∈ Finset.range m, if Q (x.val % n) b then 1 else 0) * n) := by
        rw [Finset.sum_congr rfl fun x _ => h1 x, ← Finset.mul_sum]; ring
    _ = _ := by rw [h2]; ring

theorem known_ids (l : List U16) :
    ((Finset.range 65533).filter fun x => BitVec.ofNat 16 (2 + x) ∈ l).card ≤ l.length := by
  refine Nat.le_trans (Finset.card_le_card_of_injOn (t := l.toFinset) (fun x => BitVec.ofNat 16 (2 + x))
    ?_ ?_) (List.toFinset_card_le l)
  · intro x hx
    simp only [Finset.coe_filter, Finset.mem_range, Set.mem_ofPred_eq] at hx
    simp only [List.coe_toFinset, Set.mem_ofPred_eq]
    exact hx.2
  · intro x hx y hy h
    simp only [Finset.coe_filter, Finset.mem_range, Set.mem_ofPred_eq] at hx hy
    have := congrArg BitVec.toNat h
    simp only [BitVec.toNat_ofNat] at this
    omega

/-- The packet would not be heard. -/
def unheard (s : Node) (u : Fin K) : Prop := BitVec.ofNat 16 (2 + u.val % 65533) ∈ s.nm.cache.toList

instance (s : Node) (u : Fin K) : Decidable (unheard s u) := inferInstanceAs (Decidable (_ ∈ _))

theorem unheard_count (hK : 65533 ∣ K) (s : Node) :
    (Finset.univ.filter fun u : Fin K => unheard s u).card * 65533 ≤ 5 * K := by
  have h := uniform_mod hK fun x => BitVec.ofNat 16 (2 + x) ∈ s.nm.cache.toList
  have h' := known_ids s.nm.cache.toList
  rw [Vector.length_toList] at h'
  exact Nat.le_trans (Nat.le_of_eq h) (Nat.mul_le_mul_right _ h')

theorem missed_wf {plan : List (Luck K) → Slot} {tail : Rand} {s₀ : Node} (wf : s₀.WF) :
    ∀ l, (missed plan tail s₀ l).2.WF
  | [] => wf
  | ω :: l => by
    have ih := missed_wf (plan := plan) (tail := tail) wf l
    simp only [missed]
    split
    · exact ⟨ih.idx, ih.next, ih.timerNone⟩
    · rename_i s' hs
      exact Node.step_wf (s := { (missed plan tail s₀ l).2 with rand := supply tail ω })
        ⟨ih.idx, ih.next, ih.timerNone⟩ hs

theorem missed_cons {plan : List (Luck K) → Slot} {tail : Rand} {s₀ : Node} (wf : s₀.WF)
    (l : List (Luck K)) (ω : Luck K) :
    (missed plan tail s₀ (ω :: l)).1 ≤ (missed plan tail s₀ l).1 +
      if unheard (missed plan tail s₀ l).2 ω.1 then 1 else 0 := by
  have wf' := missed_wf (plan := plan) (tail := tail) wf l
  have wf'' : ({ (missed plan tail s₀ l).2 with rand := supply tail ω } : Node).WF :=
    ⟨wf'.idx, wf'.next, wf'.timerNone⟩
  simp only [missed]
  cases hp : plan l with
  | other op =>
    split
    · simp [Slot.beats]
    · simp [Slot.beats]
  | hear now p =>
    split
    · rename_i e he
      rcases Node.radioTick_result (plat := .arduino) (now := now)
        (rx := some { p with id := BitVec.ofNat 16 (2 + ω.1.val % 65533) }) wf'' with ⟨t, h1, _⟩ | h1 | h1
      · exact absurd (h1.symm.trans he) (by simp)
      · cases h1.1
      · cases h1.1
    · rename_i s' hs
      refine Nat.add_le_add_left ?_ _
      split
      · rename_i hc
        have hh := hc.2
        simp only [Slot.anyOp] at hh
        rw [heard_tick wf''] at hh
        simp only [Node.delivered] at hh
        split at hh
        · rename_i hm
          rw [if_pos (show unheard _ _ from hm)]
        · cases hh
      · exact Nat.zero_le _

theorem missed_sum_cons (hK : 65533 ∣ K) {plan : List (Luck K) → Slot} {tail : Rand} {s₀ : Node}
    (wf : s₀.WF) (l : List (Luck K)) :
    (∑ ω : Luck K, (missed plan tail s₀ (ω :: l)).1) * 65533 ≤
      Fintype.card (Luck K) * ((missed plan tail s₀ l).1 * 65533 + 5) := by
  have h := Nat.mul_le_mul_right 65533
    (Finset.sum_le_sum (s := Finset.univ) fun ω _ => missed_cons (plan := plan) (tail := tail) wf l ω)
  refine Nat.le_trans h ?_
  rw [Finset.sum_add_distrib, Finset.sum_const, Finset.card_univ]
  have e : (∑ ω : Luck K, if unheard (missed plan tail s₀ l).2 ω.1 then 1 else 0) =
      (Finset.univ.filter fun u : Fin K => unheard (missed plan tail s₀ l).2 u).card *
        Fintype.card (Fin K × Fin K × Fin K) := by
    rw [Fintype.sum_prod_type, Finset.card_filter, Finset.sum_mul]
    refine Finset.sum_congr rfl fun x _ => ?_
    split <;> simp
  have h' := unheard_count hK (missed plan tail s₀ l).2
  have hc : Fintype.card (Luck K) = K * Fintype.card (Fin K × Fin K × Fin K) := by
    rw [Fintype.card_prod, Fintype.card_fin]
  rw [e, hc, Nat.add_mul]
  generalize Fintype.card (Fin K × Fin K × Fin K) = c at *
  generalize (Finset.univ.filter fun u : Fin K => unheard (missed plan tail s₀ l).2 u).card = a at *
  generalize (missed plan tail s₀ l).1 = b at *
  have h'' := Nat.mul_le_mul_right c h'
  calc _ = K * c * (b * 65533) + a * 65533 * c := by simp only [nsmul_eq_mul, Nat.cast_id]; ring
    _ ≤ K * c * (b * 65533) + 5 * K * c := Nat.add_le_add_left h'' _
    _ = _ := by ring

theorem missed_sum (hK : 65533 ∣ K) {plan : List (Luck K) → Slot} {tail : Rand} {s₀ : Node} (wf : s₀.WF) :
    ∀ n, (∑ w : Fin n → Luck K, (missed plan tail s₀ (List.ofFn w)).1) * 65533 ≤
      5 * n * Fintype.card (Luck K) ^ n
  | 0 => by simp [missed]
  | n + 1 => by
    rw [← (Fin.consEquiv fun _ => Luck K).sum_comp, Fintype.sum_prod_type, Finset.sum_comm]
    simp only [Fin.consEquiv, Equiv.coe_fn_mk, List.ofFn_cons]
    calc _ = ∑ w : Fin n → Luck K, (∑ ω : Luck K, (missed plan tail s₀ (ω :: List.ofFn w)).1) * 65533 := by
          rw [Finset.sum_mul]
      _ ≤ ∑ w : Fin n → Luck K,
          Fintype.card (Luck K) * ((missed plan tail s₀ (List.ofFn w)).1 * 65533 + 5) :=
          Finset.sum_le_sum fun w _ => missed_sum_cons hK wf _
      _ = Fintype.card (Luck K) * ((∑ w : Fin n → Luck K, (missed plan tail s₀ (List.ofFn w)).1) * 65533 +
          Fintype.card (Luck K) ^ n * 5) := by
          rw [← Finset.mul_sum, Finset.sum_add_distrib, Finset.sum_const, Finset.card_univ,
            Fintype.card_fun, Fintype.card_fin, ← Finset.sum_mul]
          simp only [nsmul_eq_mul, Nat.cast_id]
      _ ≤ Fintype.card (Luck K) * (5 * n * Fintype.card (Luck K) ^ n + Fintype.card (Luck K) ^ n * 5) :=
          Nat.mul_le_mul_left _ (Nat.add_le_add_right (missed_sum hK wf n) _)
      _ = _ := by ring

/-! ### The choice of the effect -/

/-- The tick changes the effect of its own accord. -/
def changes (now : U32) (rx : Option Packet) (s : Node) : Prop :=
  s.delivered rx = none ∧ s.state = .master ∧ s.timerExpired now = .changeEffect

theorem changes_of {now rx} {s s' : Node} (wf : s.WF) (h : s.radioTick .arduino now rx = .ok s')
    (hd : s.delivered rx = none) (hne : ¬ SameContent s'.getSetEffect s.getSetEffect) :
    changes now rx s := by
  cases Node.radioTick_cases wf h with
  | change h1 h2 h3 => exact ⟨h1, h2, h3⟩
  | slaveQuiet => exact absurd ⟨rfl, rfl, rfl⟩ hne
  | masterQuiet => exact absurd ⟨rfl, rfl, rfl⟩ hne
  | takeOver => exact absurd (by simp [SameContent, Node.getSetEffect, Node.afterBeginMaster]) hne
  | beat => exact absurd (by simp [SameContent, Node.getSetEffect]) hne
  | «repeat» => exact absurd (by simp [SameContent, Node.getSetEffect, Node.stamped]) hne
  | slaveHeartbeat _ e | slaveClaim _ e | slaveEffect _ e | slaveControl _ e | other _ _ _ e
  | electionWon _ e | electionLost _ e | masterClaim _ e | masterEffect _ e | masterControl _ e =>
    rw [hd] at e; cases e

theorem random_zero_arduino {n : U8} (hn : n ≠ 0) (r : Rand) :
    randomRange .arduino 0 (n.setWidth 16) r = .ok (BitVec.ofNat 16 (r 0 % n.toNat), r.rest) := by
  have hlt := n.isLt
  have hn0 : n.toNat ≠ 0 := fun h0 => hn (BitVec.eq_of_toNat_eq h0)
  have hw : (n.setWidth 16).toNat = n.toNat := by
    rw [BitVec.toNat_setWidth]; omega
  have h0 : (0 : U16).toNat = 0 := rfl
  rw [randomRange, if_neg (by rw [BitVec.le_def, hw]; omega), hw, h0]
  simp only [Nat.zero_add, Nat.sub_zero]
  rfl

theorem change_result {now rx} {s : Node} (wf : s.WF) (hc : changes now rx s) (he : s.numEffects ≠ 0)
    (hp : s.numPalettes ≠ 0) :
    ∃ s', s.radioTick .arduino now rx = .ok s' ∧
      s'.getEffectIndex.toNat = s.rand 0 % s.numEffects.toNat ∧
      s'.getSetEffect.data[2].toNat = s.rand 1 % s.numPalettes.toNat := by
  obtain ⟨h1, h2, h3⟩ := hc
  rcases Node.radioTick_result (plat := .arduino) (now := now) (rx := rx) wf with ⟨t, ht, c⟩ | h | h
  · refine ⟨t, ht, ?_⟩
    cases c with
    | change _ _ _ e pal r r' k1 k2 =>
      rw [random_zero_arduino he] at k1
      cases k1
      rw [random_zero_arduino hp] at k2
      cases k2
      have l1 := s.numEffects.isLt
      have l2 := s.numPalettes.isLt
      have z1 : s.numEffects.toNat ≠ 0 := fun h0 => he (BitVec.eq_of_toNat_eq h0)
      have z2 : s.numPalettes.toNat ≠ 0 := fun h0 => hp (BitVec.eq_of_toNat_eq h0)
      have m1 := Nat.mod_lt (s.rand 0) (Nat.pos_of_ne_zero z1)
      have m2 := Nat.mod_lt (s.rand 1) (Nat.pos_of_ne_zero z2)
      constructor
      · simp only [Node.getEffectIndex, Node.afterChange, Node.afterSend, BitVec.toNat_setWidth,
          BitVec.toNat_ofNat]
        omega
      · simp [Node.getSetEffect, Node.afterChange, Node.afterSend, Packet.writeSetEffect,
          BitVec.toNat_ofNat, Rand.rest]
        omega
    | slaveQuiet _ e | takeOver _ e => rw [h2] at e; cases e
    | masterQuiet _ _ e | beat _ _ e | «repeat» _ _ e => rw [h3] at e; cases e
    | slaveHeartbeat _ e | slaveClaim _ e | slaveEffect _ e | slaveControl _ e | other _ _ _ e
    | electionWon _ e | electionLost _ e | masterClaim _ e | masterEffect _ e | masterControl _ e =>
      rw [h1] at e; cases e
  · cases h.1
  · cases h.1

end

end Firefly
