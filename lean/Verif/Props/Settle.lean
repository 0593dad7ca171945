import Verif.Lemmas.Settle
import Verif.Props.Winnow

/-! # A network settles on one master (C175) -/

namespace Firefly.Props
open Spec Demo

section
variable {n K : Nat}

open Classical in
/-- **C175.** Any number of devices, masters and slaves, each in any state that it can have reached. Whenever one
of them is a slave, signs of life of a master reach it, never more than 1250 ms apart. Whatever else happens, and
however it is chosen: of all outcomes of `T` rounds, at most `n * (N + 1) * (5 / 65533) ^ 4` are such that any of
them took over (became a master after having been a slave) by the time `N` signs of life had reached it. -/
theorem take_over_odds (hK : 65533 ∣ K) {s₀ : Fin n → Node}
    (plan : List (Throw n K) → Fin n → Option Slot) (tail : Rand)
    (start : ∀ i, ∃ t₀ h t, Run .arduino t₀ h (s₀ i) ∧ Clock t₀ h ∧ ProperUse h ∧
      ((s₀ i).getCurrentState = .slave → Sign t₀ h t) ∧ InformedAsSlave plan tail s₀ i t.toNat) (T N : Nat) :
    (Finset.univ.filter fun w : Fin T → Throw n K =>
        ∃ i, ∃ l, l <:+ List.ofFn w ∧ reachedIn plan i l ≤ N ∧ TookOver plan tail s₀ l i).card * 65533 ^ 4 ≤
      n * ((N + 1) * 5 ^ 4) * Fintype.card (Fin T → Throw n K) := by
  have wf : ∀ i, (s₀ i).WF := fun i => by
    obtain ⟨t₀, h, t, r, _⟩ := start i
    exact r.wf
  have key := any_count (K := K) (T := T) (A := 65533 ^ 4) (B := (N + 1) * 5 ^ 4) (Finset.univ : Finset (Fin n))
    (E := fun i w => ∃ l, l <:+ List.ofFn w ∧ reachedIn plan i l ≤ N ∧ TookOver plan tail s₀ l i) fun i _ => by
      obtain ⟨t₀, h, t, run, clock, proper, sign, informed⟩ := start i
      exact tookOver_odds hK wf (run.instruction proper)
        (fun hs => (run.hbInv clock proper).slaveLow hs t (sign hs)) informed T N
  simp only [Finset.mem_univ, true_and, Finset.card_univ, Fintype.card_fin] at key
  exact key

theorem settle_arith {x a b A B C D c : Nat} (h : x ≤ a + b) (ha : a * A ≤ B * c) (hb : b * C ≤ D * c) :
    x * (A * C) ≤ (B * C + D * A) * c :=
  calc x * (A * C) ≤ (a + b) * (A * C) := Nat.mul_le_mul_right _ h
    _ = a * A * C + b * C * A := by ring
    _ ≤ B * c * C + D * c * A := Nat.add_le_add (Nat.mul_le_mul_right _ ha) (Nat.mul_le_mul_right _ hb)
    _ = _ := by ring

open Classical in
/-- **C175.** So the network settles on one master. Of all outcomes of `T` rounds, at most
`(M - 1) * (1 / 2 + 5 / 65533) ^ R + n * (N + 1) * (5 / 65533) ^ 4`, where `M` is the number of masters in the
beginning, are such that in `R` rounds the heartbeat
of a master reached all other masters, at most `N` signs of life reached each device, and there is not exactly
one master in the end: provided there is a master in the beginning, in every round some master is reached by no
heartbeat and no claim, and whenever a device is a slave signs of life reach it, never more than 1250 ms
apart. -/
theorem settles_on_one_master (hK : EvenDraws K) {s₀ : Fin n → Node}
    (plan : List (Throw n K) → Fin n → Option Slot) (tail : Rand)
    (start : ∀ i, ∃ t₀ h t, Run .arduino t₀ h (s₀ i) ∧ Clock t₀ h ∧ ProperUse h ∧
      ((s₀ i).getCurrentState = .slave → Sign t₀ h t) ∧ InformedAsSlave plan tail s₀ i t.toNat)
    (someone : ∃ m, (s₀ m).getCurrentState = .master)
    (undisturbed : ∀ l, (∃ m, MasterAt plan tail s₀ l m) → OneUndisturbed plan tail s₀ l) (T R N : Nat) :
    (Finset.univ.filter fun w : Fin T → Throw n K =>
        R ≤ beatRounds plan tail s₀ (List.ofFn w) ∧ (∀ i, reachedIn plan i (List.ofFn w) ≤ N) ∧
          ¬ ∃! i, MasterAt plan tail s₀ (List.ofFn w) i).card * ((2 * 65533) ^ R * 65533 ^ 4) ≤
      ((mastersAmong s₀ - 1) * (65533 + 2 * 5) ^ R * 65533 ^ 4 + n * ((N + 1) * 5 ^ 4) * (2 * 65533) ^ R) *
        Fintype.card (Fin T → Throw n K) := by
  have h1 := several_masters_become_one hK (fun i => by
    obtain ⟨t₀, h, t, r, _⟩ := start i
    exact ⟨t₀, h, r⟩) someone plan tail undisturbed T R
  have h2 := take_over_odds hK.ids plan tail start T N
  refine settle_arith ?_ h1 h2
  refine (Finset.card_le_card ?_).trans (Finset.card_union_le _ _)
  intro w hw
  obtain ⟨hR, hN, hun⟩ := (Finset.mem_filter.1 hw).2
  by_cases hno : NoTakeOver plan tail s₀ (List.ofFn w)
  · exact Finset.mem_union_left _ (Finset.mem_filter.2 ⟨Finset.mem_univ _, hR, hno, hun⟩)
  · refine Finset.mem_union_right _ (Finset.mem_filter.2 ⟨Finset.mem_univ _, ?_⟩)
    simp only [NoTakeOver] at hno
    push Not at hno
    obtain ⟨i, hi, l', hl', hs⟩ := hno
    exact ⟨i, List.ofFn w, List.suffix_refl _, hN i, hi, l', hl', hs⟩

end

/-! ### Concrete cases -/

/-- Two masters and a slave that was just switched on. -/
def settleStart (i : Fin 3) : Node := if i = 2 then fresh else (boot 0).2

/-- When, in its own time, the heartbeat number `k` reaches a device. -/
def settleTime (i : Fin 3) (k : Nat) : Nat := (if i = 2 then 1000 else 7000) + k * 1000

/-- The first device transmits a heartbeat each second, 100 times, that the other two hear; after that nothing
happens. -/
def settlePlan (l : List (Throw 3 (65533 * 65534))) (i : Fin 3) : Option Slot :=
  if i = 0 then none
  else if l.length < 100 then
    some (.hear (BitVec.ofNat 32 (settleTime i l.length)) ⟨0, .heartbeat, 4, Vector.replicate 58 0⟩)
  else none

theorem settle_slot {i : Fin 3} {slot : Slot} {l : List (Throw 3 (65533 * 65534))}
    (h : settlePlan l i = some slot) :
    i ≠ 0 ∧ l.length < 100 ∧ slot = .hear (BitVec.ofNat 32 (settleTime i l.length))
      ⟨0, .heartbeat, 4, Vector.replicate 58 0⟩ := by
  simp only [settlePlan] at h
  split at h
  · cases h
  · rename_i hi
    split at h
    · rename_i hl
      exact ⟨hi, hl, (Option.some.inj h).symm⟩
    · cases h

theorem settleTime_lt {i : Fin 3} {k : Nat} (h : k < 100) : settleTime i k ≤ 107000 := by
  simp only [settleTime]
  split <;> omega

theorem settle_slot_time {i : Fin 3} {slot : Slot} {l : List (Throw 3 (65533 * 65534))}
    (h : settlePlan l i = some slot) : slot.time = settleTime i l.length := by
  obtain ⟨_, hl, rfl⟩ := settle_slot h
  have := settleTime_lt (i := i) hl
  simp only [Slot.time, BitVec.toNat_ofNat]
  omega

theorem settle_news {i : Fin 3} (hi : i ≠ 0) (ω : Throw 3 (65533 * 65534)) {l : List (Throw 3 (65533 * 65534))}
    (hl : l.length < 100) :
    lastNewsIn settlePlan (fun _ => 0) settleStart i 0 (ω :: l) = settleTime i l.length := by
  have hp : settlePlan l i =
      some (.hear (BitVec.ofNat 32 (settleTime i l.length)) ⟨0, .heartbeat, 4, Vector.replicate 58 0⟩) := by
    simp only [settlePlan]
    rw [if_neg hi, if_pos hl]
  rw [lastNewsIn, hp]
  simp only
  rw [if_pos (.inl rfl)]
  exact settle_slot_time hp

theorem settle_pace {i : Fin 3} {slot : Slot} {l : List (Throw 3 (65533 * 65534))}
    (h : settlePlan l i = some slot) (hm : ¬ MasterAt settlePlan (fun _ => 0) settleStart l i) :
    lastNewsIn settlePlan (fun _ => 0) settleStart i 0 l ≤ slot.time ∧
      slot.time ≤ lastNewsIn settlePlan (fun _ => 0) settleStart i 0 l + 1250 := by
  rw [settle_slot_time h]
  obtain ⟨hi, hl, _⟩ := settle_slot h
  cases l with
  | nil =>
    have h2 : i = 2 := by
      apply Decidable.byContradiction
      intro h2
      refine hm ?_
      show (settleStart i).getCurrentState = .master
      rw [settleStart, if_neg h2]
      exact boot_master 0
    rw [h2]
    simp [settleTime, lastNewsIn]
  | cons ω l =>
    rw [List.length_cons] at hl
    rw [settle_news hi ω (by omega), List.length_cons]
    simp only [settleTime]
    omega

theorem settle_informed (i : Fin 3) : InformedAsSlave settlePlan (fun _ => 0) settleStart i (0 : U32).toNat := by
  refine ⟨?_, fun l slot h hm => (settle_pace h hm).1, fun l slot h hm => (settle_pace h hm).2, ?_, ?_⟩
  · intro l now p hp
    have := (settle_slot hp).2.2
    injection this with _ h
    rw [h]
    exact .inl rfl
  · intro l slot h
    rw [settle_slot_time h]
    have := settleTime_lt (i := i) (settle_slot h).2.1
    omega
  · intro l now p hp
    have := (settle_slot hp).2.2
    cases this

theorem settle_start (i : Fin 3) : ∃ t₀ h t, Run .arduino t₀ h (settleStart i) ∧ Clock t₀ h ∧ ProperUse h ∧
    ((settleStart i).getCurrentState = .slave → Sign t₀ h t) ∧
      InformedAsSlave settlePlan (fun _ => 0) settleStart i t.toNat := by
  by_cases h2 : i = 2
  · refine ⟨0, [], 0, ?_, ⟨by simp, by simp⟩, fun _ k => absurd k List.not_mem_nil, fun _ => .inl rfl,
      settle_informed i⟩
    rw [settleStart, if_pos h2]
    exact fresh_run
  · have e : (boot 0).1.map summary = [⟨6000, true, .slave, .master, none, [.heartbeat], true⟩] := by
      decide +kernel
    refine ⟨0, (boot 0).1, 0, ?_, clock_of_summaries e (by decide +kernel), proper_of_summaries e (by decide +kernel),
      fun _ => .inl rfl, settle_informed i⟩
    rw [settleStart, if_neg h2]
    exact boot_run 0

theorem settle_first (l : List (Throw 3 (65533 * 65534))) :
    MasterAt settlePlan (fun _ => 0) settleStart l 0 := by
  induction l with
  | nil => exact boot_master 0
  | cons ω l ih =>
    show (crowd settlePlan (fun _ => 0) settleStart (ω :: l) 0).state = .master
    rw [crowd_idle _ _ _ (show settlePlan l 0 = none from rfl)]
    exact ih

theorem settle_undisturbed (l : List (Throw 3 (65533 * 65534))) :
    OneUndisturbed settlePlan (fun _ => 0) settleStart l :=
  ⟨0, settle_first l, fun slot p h => by cases h⟩

theorem settle_rounds : ∀ l : List (Throw 3 (65533 * 65534)), l.length ≤ 100 →
    beatRounds settlePlan (fun _ => 0) settleStart l = l.length
  | [], _ => rfl
  | ω :: l, h => by
    rw [List.length_cons] at h
    rw [beatRounds, settle_rounds l (by omega), if_pos, List.length_cons]
    refine ⟨0, settle_first l, fun i hi _ => ?_⟩
    have hp : settlePlan l i =
        some (.hear (BitVec.ofNat 32 (settleTime i l.length)) ⟨0, .heartbeat, 4, Vector.replicate 58 0⟩) := by
      simp only [settlePlan]
      rw [if_neg hi, if_pos (by omega)]
    exact ⟨_, _, hp, rfl⟩

theorem settle_reached (i : Fin 3) : ∀ l : List (Throw 3 (65533 * 65534)), reachedIn settlePlan i l ≤ l.length
  | [] => Nat.le_refl _
  | ω :: l => by
    have := settle_reached i l
    rw [reachedIn, List.length_cons]
    cases h : settlePlan l i with
    | none => simp; omega
    | some slot =>
      obtain ⟨_, _, rfl⟩ := settle_slot h
      simp [Slot.beats]
      omega

theorem settle_demo_arith {a b x y : Nat} (h : a * x ≤ y * b) (e : 1000000000000 * y ≤ x) (e' : 0 < x) :
    a * 1000000000000 ≤ b := by
  refine Nat.le_of_mul_le_mul_right ?_ e'
  calc a * 1000000000000 * x = 1000000000000 * (a * x) := by ring
    _ ≤ 1000000000000 * (y * b) := Nat.mul_le_mul_left _ h
    _ = 1000000000000 * y * b := by ring
    _ ≤ x * b := Nat.mul_le_mul_right _ e
    _ = b * x := by ring

theorem settle_masters : mastersAmong settleStart = 2 := by decide +kernel

open Classical in
/-- The theorem applies to these three devices, for any number of heartbeats up to 100. -/
theorem settle_any (T : Nat) (hT : T ≤ 100) :
    (Finset.univ.filter fun w : Fin T → Throw 3 (65533 * 65534) =>
      ¬ ∃! i, MasterAt settlePlan (fun _ => 0) settleStart (List.ofFn w) i).card *
        ((2 * 65533) ^ T * 65533 ^ 4) ≤
      ((2 - 1) * (65533 + 2 * 5) ^ T * 65533 ^ 4 + 3 * ((T + 1) * 5 ^ 4) * (2 * 65533) ^ T) *
        Fintype.card (Fin T → Throw 3 (65533 * 65534)) := by
  have key := settles_on_one_master evenDraws_demo settlePlan (fun _ => 0) settle_start ⟨0, settle_first []⟩
      (fun l _ => settle_undisturbed l) T T T
  rw [settle_masters] at key
  refine Nat.le_trans (Nat.mul_le_mul_right _ (Finset.card_le_card ?_)) key
  intro w hw
  have hl : (List.ofFn w).length = T := List.length_ofFn
  refine Finset.mem_filter.2 ⟨Finset.mem_univ _, ?_, fun i => ?_, (Finset.mem_filter.1 hw).2⟩
  · rw [settle_rounds _ (by omega), hl]
  · exact (settle_reached i _).trans (Nat.le_of_eq hl)

open Classical in
/-- After 40 heartbeats there is exactly one master, in all but one of 10^12 outcomes. -/
theorem settle_forty :
    (Finset.univ.filter fun w : Fin 40 → Throw 3 (65533 * 65534) =>
      ¬ ∃! i, MasterAt settlePlan (fun _ => 0) settleStart (List.ofFn w) i).card * 1000000000000 ≤
      Fintype.card (Fin 40 → Throw 3 (65533 * 65534)) :=
  settle_demo_arith (settle_any 40 (by omega)) (by decide +kernel) (by decide +kernel)

/-- With this luck only the first is a master after two rounds. -/
example : ∀ i : Fin 3, MasterAt settlePlan (fun _ => 0) settleStart
    [throw ⟨40000, by decide⟩ fun _ => ⟨5, by decide⟩,
     throw ⟨10000, by decide⟩ fun i => if i = 1 then ⟨10, by decide⟩ else ⟨50000, by decide⟩] i ↔ i = 0 := by
  simp only [MasterAt]
  decide +kernel

end Firefly.Props
