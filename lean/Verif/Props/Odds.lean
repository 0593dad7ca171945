import Verif.Lemmas.Odds
import Verif.Props.Election

/-! # The odds of an election (C155) -/

namespace Firefly.Props
open Spec Demo

section
variable {K : Nat}

open Classical in
/-- **C155.** Whatever a master does and hears besides, and however the moments at which it hears the
heartbeats of other masters are chosen: of all outcomes of `n` steps, at most one in `2 ^ N` is such that it
heard at least `N` of these heartbeats and was the master all the time. -/
theorem second_master_odds (hK : EvenDraws K) {t₀ : U32} {h : List Entry} {s₀ : Node}
    (run : Run .arduino t₀ h s₀) (plan : List (Luck K) → Slot) (tail : Rand) (n N : Nat) :
    (Finset.univ.filter fun w : Fin n → Luck K =>
        ∃ k s, staysMaster plan tail s₀ (List.ofFn w) = some (k, s) ∧ N ≤ k).card * 2 ^ N ≤
      Fintype.card (Fin n → Luck K) := by
  rw [Fintype.card_fun, Fintype.card_fin]
  refine Nat.le_trans ?_ (oddsWeight_sum hK (plan := plan) (tail := tail) run.wf n)
  rw [Finset.card_filter, Finset.sum_mul]
  refine Finset.sum_le_sum fun w _ => ?_
  split
  · rename_i h
    obtain ⟨k, s, h, hk⟩ := h
    simp only [oddsWeight, h, Nat.one_mul]
    exact Nat.pow_le_pow_right (by decide) hk
  · simp

end

/-! ### Concrete cases -/

theorem evenDraws_demo : EvenDraws (65533 * 65534) :=
  ⟨by decide, ⟨65534, rfl⟩, ⟨65533, rfl⟩⟩

/-- Hear a heartbeat, let a second go by, and so on. -/
def duelPlan (l : List (Luck (65533 * 65534))) : Slot :=
  if l.length % 2 = 0 then .hear (7000 + BitVec.ofNat 32 l.length * 500) ⟨0, .heartbeat, 4, Vector.replicate 58 0⟩
  else .other (.radioTick (7000 + BitVec.ofNat 32 l.length * 500) none)

/-- A luck: the draw of the sender and the first draw of the device. -/
def luck (u v : Fin (65533 * 65534)) : Luck (65533 * 65534) := (u, v, ⟨7, by decide⟩, ⟨8, by decide⟩)

/-- Luck with which a device that made itself the master hears two heartbeats and is still the master, and
luck with which it is not. -/
theorem second_master_odds_demo :
    Run .arduino 0 (boot 0).1 (boot 0).2 ∧
    (∃ s, staysMaster duelPlan (fun _ => 0) (boot 0).2
      [luck ⟨20, by decide⟩ ⟨60000, by decide⟩, luck ⟨30, by decide⟩ ⟨40, by decide⟩,
       luck ⟨65533 + 10, by decide⟩ ⟨65534 + 50000, by decide⟩] = some (2, s)) ∧
    staysMaster duelPlan (fun _ => 0) (boot 0).2
      [luck ⟨20, by decide⟩ ⟨60000, by decide⟩, luck ⟨30, by decide⟩ ⟨40, by decide⟩,
       luck ⟨65533 + 50000, by decide⟩ ⟨65534 + 10, by decide⟩] = none := by
  refine ⟨boot_run 0, ?_, ?_⟩
  · have h : ((staysMaster duelPlan (fun _ => 0) (boot 0).2
      [luck ⟨20, by decide⟩ ⟨60000, by decide⟩, luck ⟨30, by decide⟩ ⟨40, by decide⟩,
       luck ⟨65533 + 10, by decide⟩ ⟨65534 + 50000, by decide⟩]).map Prod.fst) = some 2 := by
      decide +kernel
    obtain ⟨⟨k, s⟩, h1, h2⟩ := Option.map_eq_some_iff.1 h
    cases h2
    exact ⟨s, h1⟩
  · have h : (staysMaster duelPlan (fun _ => 0) (boot 0).2
      [luck ⟨20, by decide⟩ ⟨60000, by decide⟩, luck ⟨30, by decide⟩ ⟨40, by decide⟩,
       luck ⟨65533 + 50000, by decide⟩ ⟨65534 + 10, by decide⟩]).isNone = true := by
      decide +kernel
    exact Option.isNone_iff_eq_none.1 h

end Firefly.Props
