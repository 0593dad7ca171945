import Verif.Lemmas.Winnow
import Verif.Props.Crowd

/-! # Several masters become one (C174) -/

namespace Firefly.Props
open Spec Demo

theorem mean_arith {x y c R a b d : Nat} (h : x ≤ R * c + y) (h2 : y * a * b ≤ d * c) :
    x * a * b ≤ (R * a * b + d) * c :=
  calc x * a * b ≤ (R * c + y) * a * b := Nat.mul_le_mul_right _ (Nat.mul_le_mul_right _ h)
    _ = R * a * b * c + y * a * b := by ring
    _ ≤ R * a * b * c + d * c := Nat.add_le_add_left h2 _
    _ = _ := by ring

section
variable {n K : Nat}

open Classical in
/-- **C174.** Of all outcomes of `T` rounds, at most `(M - 1) * (1 / 2 + 5 / 65533) ^ R`, where `M` is the number of
masters in the beginning, are such that in `R` rounds the heartbeat of a master reached all other masters, and two
of the devices were masters all the time. Whatever the devices do and hear besides, and however it is chosen. -/
theorem two_masters_odds (hK : EvenDraws K) {s₀ : Fin n → Node} (run : ∀ i, ∃ t₀ h, Run .arduino t₀ h (s₀ i))
    (plan : List (Throw n K) → Fin n → Option Slot) (tail : Rand) (T R : Nat) :
    (Finset.univ.filter fun w : Fin T → Throw n K =>
        R ≤ beatRounds plan tail s₀ (List.ofFn w) ∧
        ∃ i j, i ≠ j ∧ ∀ l, l <:+ List.ofFn w →
          MasterAt plan tail s₀ l i ∧ MasterAt plan tail s₀ l j).card * (2 * 65533) ^ R ≤
      (mastersAmong s₀ - 1) * (65533 + 2 * 5) ^ R * Fintype.card (Fin T → Throw n K) := by
  have wf : ∀ i, (s₀ i).WF := fun i => by
    obtain ⟨t₀, h, r⟩ := run i
    exact r.wf
  refine Nat.le_trans (Nat.mul_le_mul_right _ (Finset.card_le_card ?_))
    (lasting_odds hK (plan := plan) (tail := tail) wf T R)
  intro w hw
  obtain ⟨hR, i, j, hij, hm⟩ := (Finset.mem_filter.1 hw).2
  refine Finset.mem_filter.2 ⟨Finset.mem_univ _, ?_, hR⟩
  rw [lastingMasters_eq, ← Finset.card_pair hij]
  refine Finset.card_le_card fun x hx => mem_lastingSet.2 ?_
  rcases Finset.mem_insert.1 hx with rfl | hx
  · exact fun l hl => (hm l hl).1
  · rw [Finset.mem_singleton.1 hx]
    exact fun l hl => (hm l hl).2

/-- **C174.** On average over all outcomes of `T` rounds, the number of rounds in which the heartbeat of a master
reached all other masters while two devices had been masters all the time exceeds `R` by at most
`2.0004 (M - 1) (1 / 2 + 5 / 65533) ^ R`. -/
theorem contested_excess (hK : EvenDraws K) {s₀ : Fin n → Node} (run : ∀ i, ∃ t₀ h, Run .arduino t₀ h (s₀ i))
    (plan : List (Throw n K) → Fin n → Option Slot) (tail : Rand) (T R : Nat) :
    (∑ w : Fin T → Throw n K, (contested plan tail s₀ (List.ofFn w) - R)) * (65533 - 2 * 5) * (2 * 65533) ^ R ≤
      (mastersAmong s₀ - 1) * (2 * 65533) * (65533 + 2 * 5) ^ R * Fintype.card (Fin T → Throw n K) :=
  contested_sum hK (fun i => by
    obtain ⟨t₀, h, r⟩ := run i
    exact r.wf) T R

/-- **C174.** So that number is, on average, at most `R + 2.0004 (M - 1) (1 / 2 + 5 / 65533) ^ R` for every `R`: it
grows with the logarithm of the number of masters. -/
theorem contested_mean (hK : EvenDraws K) {s₀ : Fin n → Node} (run : ∀ i, ∃ t₀ h, Run .arduino t₀ h (s₀ i))
    (plan : List (Throw n K) → Fin n → Option Slot) (tail : Rand) (T R : Nat) :
    (∑ w : Fin T → Throw n K, contested plan tail s₀ (List.ofFn w)) * (65533 - 2 * 5) * (2 * 65533) ^ R ≤
      (R * (65533 - 2 * 5) * (2 * 65533) ^ R + (mastersAmong s₀ - 1) * (2 * 65533) * (65533 + 2 * 5) ^ R) *
        Fintype.card (Fin T → Throw n K) := by
  have h : ∑ w : Fin T → Throw n K, contested plan tail s₀ (List.ofFn w) ≤
      R * Fintype.card (Fin T → Throw n K) +
        ∑ w : Fin T → Throw n K, (contested plan tail s₀ (List.ofFn w) - R) := by
    calc _ ≤ ∑ w : Fin T → Throw n K, (R + (contested plan tail s₀ (List.ofFn w) - R)) :=
          Finset.sum_le_sum fun w _ => by omega
      _ = _ := by
          rw [Finset.sum_add_distrib, Finset.sum_const, Finset.card_univ, nsmul_eq_mul, Nat.cast_id, Nat.mul_comm]
  have h2 := contested_excess hK run plan tail T R
  exact mean_arith h h2

/-- **C174.** If in every round some master is reached by no heartbeat and no claim (as on the hardware, where
claims do not arrive, while one master at a time transmits), there is always a master. -/
theorem always_a_master {s₀ : Fin n → Node} (run : ∀ i, ∃ t₀ h, Run .arduino t₀ h (s₀ i))
    (plan : List (Throw n K) → Fin n → Option Slot) (tail : Rand)
    (start : ∃ m, (s₀ m).getCurrentState = .master) :
    ∀ l, (∀ l', l' <:+ l → l' ≠ l → (∃ m, MasterAt plan tail s₀ l' m) → OneUndisturbed plan tail s₀ l') →
      ∃ m, MasterAt plan tail s₀ l m
  | [], _ => start
  | ω :: l, h => by
    have wf : ∀ i, (s₀ i).WF := fun i => by
      obtain ⟨t₀, h, r⟩ := run i
      exact r.wf
    have ih := always_a_master run plan tail start l
      fun l' hl _ hm => h l' (hl.trans (List.suffix_cons ω l)) (fun k => by
        have := hl.length_le
        rw [k] at this
        simp at this) hm
    exact some_master wf (h l (List.suffix_cons ω l) (fun k => by
      have := congrArg List.length k
      simp at this) ih) ω

open Classical in
/-- **C174.** So several masters become one: if in every round some master is reached by no heartbeat and no
claim, at most `(M - 1) * (1 / 2 + 5 / 65533) ^ R` of all outcomes, where `M` is the number of masters in the
beginning, are such that in `R` rounds the heartbeat of a master reached all other masters, no slave took over, and there is not exactly one master in the end. -/
theorem several_masters_become_one (hK : EvenDraws K) {s₀ : Fin n → Node}
    (run : ∀ i, ∃ t₀ h, Run .arduino t₀ h (s₀ i)) (start : ∃ m, (s₀ m).getCurrentState = .master)
    (plan : List (Throw n K) → Fin n → Option Slot) (tail : Rand)
    (undisturbed : ∀ l, (∃ m, MasterAt plan tail s₀ l m) → OneUndisturbed plan tail s₀ l) (T R : Nat) :
    (Finset.univ.filter fun w : Fin T → Throw n K =>
        R ≤ beatRounds plan tail s₀ (List.ofFn w) ∧ NoTakeOver plan tail s₀ (List.ofFn w) ∧
          ¬ ∃! i, MasterAt plan tail s₀ (List.ofFn w) i).card * (2 * 65533) ^ R ≤
      (mastersAmong s₀ - 1) * (65533 + 2 * 5) ^ R * Fintype.card (Fin T → Throw n K) := by
  refine Nat.le_trans (Nat.mul_le_mul_right _ (Finset.card_le_card ?_))
    (two_masters_odds hK run plan tail T R)
  intro w hw
  obtain ⟨hR, hno, hun⟩ := (Finset.mem_filter.1 hw).2
  refine Finset.mem_filter.2 ⟨Finset.mem_univ _, hR, ?_⟩
  obtain ⟨i, hi⟩ := always_a_master run plan tail start (List.ofFn w) fun l _ _ hm => undisturbed l hm
  have : ∃ j, j ≠ i ∧ MasterAt plan tail s₀ (List.ofFn w) j := by
    apply Classical.byContradiction
    intro hc
    refine hun ⟨i, hi, fun j hj => ?_⟩
    apply Classical.byContradiction
    exact fun hne => hc ⟨j, hne, hj⟩
  obtain ⟨j, hji, hj⟩ := this
  exact ⟨i, j, hji.symm, fun l hl => ⟨hno i hi l hl, hno j hj l hl⟩⟩

end

/-! ### Concrete cases -/

/-- The first of three devices transmits a heartbeat each second that the other two hear. -/
def winnowPlan (l : List (Throw 3 (65533 * 65534))) (i : Fin 3) : Option Slot :=
  if i = 0 then none
  else some (.hear (7000 + BitVec.ofNat 32 l.length * 1000) ⟨0, .heartbeat, 4, Vector.replicate 58 0⟩)

theorem winnow_first (l : List (Throw 3 (65533 * 65534))) :
    MasterAt winnowPlan (fun _ => 0) (fun _ => (boot 0).2) l 0 := by
  induction l with
  | nil => show (boot 0).2.state = .master; decide +kernel
  | cons ω l ih =>
    show (crowd winnowPlan (fun _ => 0) (fun _ => (boot 0).2) (ω :: l) 0).state = .master
    rw [crowd_idle _ _ _ (show winnowPlan l 0 = none from rfl)]
    exact ih

theorem winnow_undisturbed (l : List (Throw 3 (65533 * 65534))) :
    OneUndisturbed winnowPlan (fun _ => 0) (fun _ => (boot 0).2) l :=
  ⟨0, winnow_first l, fun slot p h => by cases h⟩

theorem winnow_rounds (l : List (Throw 3 (65533 * 65534))) :
    beatRounds winnowPlan (fun _ => 0) (fun _ => (boot 0).2) l = l.length := by
  induction l with
  | nil => rfl
  | cons ω l ih =>
    rw [beatRounds, ih, if_pos, List.length_cons]
    exact ⟨0, winnow_first l, fun i hi _ => ⟨_, _, if_neg hi, rfl⟩⟩

/-- Three masters: with this luck only the first is a master after two rounds, with the other all are. -/
theorem winnow_demo :
    (∀ i : Fin 3, ∃ t₀ h, Run .arduino t₀ h ((fun _ => (boot 0).2) i)) ∧
    (∀ i : Fin 3, MasterAt winnowPlan (fun _ => 0) (fun _ => (boot 0).2)
      [throw ⟨40000, by decide⟩ fun _ => ⟨5, by decide⟩,
       throw ⟨10000, by decide⟩ fun i => if i = 1 then ⟨10, by decide⟩ else ⟨50000, by decide⟩] i ↔ i = 0) ∧
    (∀ i : Fin 3, MasterAt winnowPlan (fun _ => 0) (fun _ => (boot 0).2)
      [throw ⟨20, by decide⟩ fun _ => ⟨500, by decide⟩,
       throw ⟨10000, by decide⟩ fun _ => ⟨50000, by decide⟩] i) := by
  refine ⟨fun _ => ⟨0, _, boot_run 0⟩, ?_, ?_⟩
  · simp only [MasterAt]
    decide +kernel
  · simp only [MasterAt]
    decide +kernel

theorem winnow_arith {a b x y : Nat} (h : a * x ≤ y * b) (e : 1000000 * y ≤ 2 * x) (e' : 0 < x) :
    a * 1000000 ≤ 2 * b := by
  refine Nat.le_of_mul_le_mul_right ?_ e'
  calc a * 1000000 * x = 1000000 * (a * x) := by ring
    _ ≤ 1000000 * (y * b) := Nat.mul_le_mul_left _ h
    _ = 1000000 * y * b := by ring
    _ ≤ 2 * x * b := Nat.mul_le_mul_right _ e
    _ = 2 * b * x := by ring

theorem scale_mean {x a b e c : Nat} (h : x * a * b ≤ e * c) (he : e * 1000 ≤ 3002 * (a * b)) (hp : 0 < a * b) :
    x * 1000 ≤ 3002 * c := by
  refine Nat.le_of_mul_le_mul_right ?_ hp
  calc x * 1000 * (a * b) = 1000 * (x * a * b) := by ring
    _ ≤ 1000 * (e * c) := Nat.mul_le_mul_left _ h
    _ = e * 1000 * c := by ring
    _ ≤ 3002 * (a * b) * c := Nat.mul_le_mul_right _ he
    _ = _ := by ring

theorem winnow_masters : mastersAmong (fun _ : Fin 3 => (boot 0).2) = 3 := by decide +kernel

open Classical in
/-- The theorem applies to these three devices. -/
theorem winnow_any (T : Nat) :
    (Finset.univ.filter fun w : Fin T → Throw 3 (65533 * 65534) =>
        NoTakeOver winnowPlan (fun _ => 0) (fun _ => (boot 0).2) (List.ofFn w) ∧
          ¬ ∃! i, MasterAt winnowPlan (fun _ => 0) (fun _ => (boot 0).2) (List.ofFn w) i).card * (2 * 65533) ^ T ≤
      (3 - 1) * (65533 + 2 * 5) ^ T * Fintype.card (Fin T → Throw 3 (65533 * 65534)) := by
  have key := several_masters_become_one evenDraws_demo (fun _ => ⟨0, _, boot_run 0⟩)
    ⟨0, winnow_first []⟩ winnowPlan (fun _ => 0) (fun l _ => winnow_undisturbed l) T T
  rw [winnow_masters] at key
  refine Nat.le_trans (Nat.mul_le_mul_right _ (Finset.card_le_card ?_)) key
  intro w hw
  refine Finset.mem_filter.2 ⟨Finset.mem_univ _, ?_, (Finset.mem_filter.1 hw).2⟩
  rw [winnow_rounds, List.length_ofFn]

open Classical in
/-- After 20 rounds there is exactly one master unless a slave took over, in all but 2 of a million outcomes. -/
theorem winnow_twenty :
    (Finset.univ.filter fun w : Fin 20 → Throw 3 (65533 * 65534) =>
        NoTakeOver winnowPlan (fun _ => 0) (fun _ => (boot 0).2) (List.ofFn w) ∧
          ¬ ∃! i, MasterAt winnowPlan (fun _ => 0) (fun _ => (boot 0).2) (List.ofFn w) i).card * 1000000 ≤
      2 * Fintype.card (Fin 20 → Throw 3 (65533 * 65534)) :=
  winnow_arith (winnow_any 20) (by decide +kernel) (by decide +kernel)

/-- Nor does it take long: on average two of the three have been masters all the time in at most 3.002 rounds. -/
theorem winnow_mean (T : Nat) :
    (∑ w : Fin T → Throw 3 (65533 * 65534), contested winnowPlan (fun _ => 0) (fun _ => (boot 0).2) (List.ofFn w)) *
        1000 ≤
      3002 * Fintype.card (Fin T → Throw 3 (65533 * 65534)) := by
  have h := contested_mean evenDraws_demo (s₀ := fun _ : Fin 3 => (boot 0).2) (fun _ => ⟨0, _, boot_run 0⟩) winnowPlan
    (fun _ => 0) T 1
  rw [winnow_masters] at h
  exact scale_mean h (by decide +kernel) (by decide +kernel)

end Firefly.Props
