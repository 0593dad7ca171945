import Verif.Lemmas.Informed
import Verif.Props.Odds

/-! # A slave that is kept informed seldom takes over (C165) -/

namespace Firefly.Props
open Spec Demo

section
variable {K : Nat}

open Classical in
/-- **C165.** A slave was switched on, yielded, or heard of a master at `t`, and from then on signs of life of a
master reach it, never more than 1250 ms apart. Whatever else it does and hears, and however these moments are
chosen: of all outcomes of `n` steps, at most `(N + 1) * (5 / 65533) ^ 4` are such that it was ever a master by
the time `N` signs of life had reached it. -/
theorem informed_slave_odds (hK : 65533 ∣ K) {t₀ t : U32} {h : List Entry} {s₀ : Node}
    (run : Run .arduino t₀ h s₀) (clock : Clock t₀ h) (proper : ProperUse h)
    (slave : s₀.getCurrentState = .slave) (sign : Sign t₀ h t)
    (plan : List (Luck K) → Slot) (tail : Rand) (informed : KeptInformed plan t.toNat) (n N : Nat) :
    (Finset.univ.filter fun w : Fin n → Luck K =>
        ∃ l, l <:+ List.ofFn w ∧ reached plan l ≤ N ∧
          (missed plan tail s₀ l).2.getCurrentState = .master).card * 65533 ^ 4 ≤
      (N + 1) * 5 ^ 4 * Fintype.card (Fin n → Luck K) := by
  rw [Fintype.card_fun, Fintype.card_fin]
  refine Nat.le_trans ?_ (outlook_sum hK N plan tail s₀ n)
  rw [Finset.card_filter, Finset.sum_mul]
  refine Finset.sum_le_sum fun w _ => ?_
  split
  · rename_i hw
    obtain ⟨l, hl, hN, hm⟩ := hw
    have h4 : 4 ≤ row N plan tail s₀ l := by
      apply Decidable.byContradiction
      intro hr
      have k := patient run.wf slave (run.instruction proper) ((run.hbInv clock proper).slaveLow slave t sign)
        informed l hN (Nat.lt_of_not_le hr)
      exact absurd (k.slave.symm.trans hm) (by decide)
    have h4 := Nat.le_antisymm (row_le N plan tail s₀ (List.ofFn w)) (row_suffix hl h4)
    rw [outlook, h4, Nat.one_mul]
    exact Nat.le_add_right _ _
  · simp

end

/-! ### Concrete cases -/

/-- A slave that has just been switched on. -/
def fresh : Node := ((bootRun .arduino 0 (fun n => n) []).getD (boot 0)).2

theorem fresh_run : Run .arduino 0 [] fresh := ⟨fun n => n, _, _, .nil⟩

/-- A heartbeat every 1250 ms, five times, and after that nothing for a millisecond. -/
def informedPlan (l : List (Luck (65533 * 65534))) : Slot :=
  if l.length < 5 then
    .hear (BitVec.ofNat 32 (1250 * (l.length + 1))) ⟨0, .heartbeat, 4, Vector.replicate 58 0⟩
  else .other (.radioTick 6251 none)

theorem informedPlan_last (l : List (Luck (65533 * 65534))) :
    lastReached informedPlan 0 l = 1250 * min l.length 5 := by
  induction l with
  | nil => rfl
  | cons ω l ih =>
    simp only [lastReached, informedPlan]
    by_cases h : l.length < 5
    · rw [if_pos h]
      simp only [BitVec.toNat_ofNat, List.length_cons]
      omega
    · rw [if_neg h]
      simp only [ih, List.length_cons]
      omega

theorem informedPlan_time (l : List (Luck (65533 * 65534))) :
    (informedPlan l).time = if l.length < 5 then 1250 * (l.length + 1) else 6251 := by
  simp only [informedPlan]
  by_cases h : l.length < 5
  · rw [if_pos h, if_pos h]
    simp only [Slot.time, BitVec.toNat_ofNat]
    omega
  · rw [if_neg h, if_neg h]
    rfl

theorem informedPlan_kept : KeptInformed informedPlan (0 : U32).toNat := by
  refine ⟨?_, ?_, ?_, ?_, ?_⟩
  · intro l now p hp
    simp only [informedPlan] at hp
    split at hp
    · injection hp with _ hp
      rw [← hp]
      exact .inl rfl
    · cases hp
  · intro l
    rw [informedPlan_time, show (0 : U32).toNat = 0 from rfl, informedPlan_last]
    split <;> omega
  · intro l
    rw [informedPlan_time, show (0 : U32).toNat = 0 from rfl, informedPlan_last]
    split <;> omega
  · intro l
    rw [informedPlan_time]
    split <;> omega
  · intro l now p hp
    simp only [informedPlan] at hp
    split at hp <;> cases hp

/-- Luck with which the slave hears every heartbeat, and the odd luck, each heartbeat with the number of the
first, with which it takes over. -/
theorem informed_slave_demo :
    Run .arduino 0 [] fresh ∧ Clock 0 [] ∧ ProperUse [] ∧ fresh.getCurrentState = .slave ∧ Sign 0 [] 0 ∧
    KeptInformed informedPlan (0 : U32).toNat ∧
    (missed informedPlan (fun _ => 0) fresh
      [luck ⟨25, by decide⟩ ⟨0, by decide⟩, luck ⟨24, by decide⟩ ⟨0, by decide⟩,
       luck ⟨23, by decide⟩ ⟨0, by decide⟩, luck ⟨22, by decide⟩ ⟨0, by decide⟩,
       luck ⟨21, by decide⟩ ⟨0, by decide⟩, luck ⟨20, by decide⟩ ⟨0, by decide⟩]).2.getCurrentState =
      .slave ∧
    (missed informedPlan (fun _ => 0) fresh
      (List.replicate 6 (luck ⟨20, by decide⟩ ⟨0, by decide⟩))).2.getCurrentState = .master := by
  refine ⟨fresh_run, ⟨?_, ?_⟩, fun _ k => absurd k List.not_mem_nil, by decide +kernel, .inl rfl,
    informedPlan_kept, by decide +kernel, by decide +kernel⟩
  · simp
  · simp

end Firefly.Props
