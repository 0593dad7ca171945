import Verif.Props.ClockedRotation
import Verif.Props.ClockedDemo
import Verif.Lemmas.Example

/-! # Concrete runs for the rotation on a clock that advances while the code runs (C162) -/

namespace Firefly.Props
open Spec

namespace ClockedDemo

/-- Run the ticks after power-on at time 0. -/
def drive (l : List (Reads × Option Packet)) : List Timed × Node :=
  (runPaced .arduino l [] (start 0)).getD ([], start 0)

theorem drive_run (l : List (Reads × Option Packet)) : PacedRun .arduino 0 (drive l).1 (drive l).2 := by
  unfold drive
  cases h : runPaced .arduino l [] (start 0) with
  | none => exact ⟨_, _, _, .nil⟩
  | some x => exact ⟨_, _, _, runPaced_sound .nil h⟩

/-- Effect `n` for `d` seconds. -/
def wish (id : U16) (n d : U8) : Option Packet :=
  some ⟨id, .setEffect, 3, ((Vector.replicate 58 0).set 0 n).set 1 d⟩

/-- Effect 5 is heard at 103, in the tick from 100 to 110, and then a heartbeat every 5 s until 55 s. -/
def kept : List (Reads × Option Packet) :=
  (ticking 100, wish 99 5 0) :: (List.range 11).map fun k =>
    (ticking (.ofNat 32 (5000 * (k + 1))), some ⟨.ofNat 16 (200 + k), .heartbeat, 4, Vector.replicate 58 0⟩)

/-- Take-over 7 s after the change. -/
def early := drive [(ticking 100, wish 99 5 0), (ticking 7000, none)]
/-- Take-over in the tick from 60094 to 60104. -/
def mark := drive (kept ++ [(ticking 60094, none)])
/-- Take-over in the tick from 64000 to 64010. -/
def late := drive (kept ++ [(ticking 64000, none)])
/-- The choice of the device after that. -/
def chosen := drive (kept ++ [(ticking 64000, none), (ticking 64020, none)])
/-- The request to show effect 6 for 3 s after that. -/
def asked := drive (kept ++ [(ticking 64000, none), (ticking 64020, none), (ticking 64040, wish 98 6 3)])
/-- After an early take-over, in turn: heartbeat, repetition, heartbeats, repetition. -/
def repeating := drive [(ticking 100, wish 99 5 0), (ticking 7000, none), (ticking 8020, none),
  (ticking 9010, none), (ticking 9030, none), (ticking 10050, none), (ticking 11020, none)]

/-- Whether the last step is a take-over after which the last change was seen in the step from 100 to
110. -/
def isTakeover : List Timed → Bool
  | [] => false
  | x :: h => decide (Entry.Promoted x.entry) &&
      match h.reverse with
      | [] => false
      | y :: l => decide (ChangeSeen y.entry) && decide (began y = 100 ∧ ended y = 110) &&
          l.all (fun z => decide (¬ ChangeSeen z.entry)) &&
          (y :: l).all fun z => decide (∀ p, Entry.heard z.entry = some p → p.type = .setEffect →
            p.data[0].toNat < 128)

theorem isTakeover_sound {l} (h : isTakeover l = true) : ∃ x h, l = x :: h ∧ SmallEffectsR h ∧
    Entry.Promoted x.entry ∧ LastSeen h 100 110 := by
  unfold isTakeover at h
  split at h
  · cases h
  · rename_i x h'
    simp only [Bool.and_eq_true, decide_eq_true_eq] at h
    obtain ⟨h1, h2⟩ := h
    split at h2
    · cases h2
    · rename_i y l e
      simp only [Bool.and_eq_true, decide_eq_true_eq, List.all_eq_true] at h2
      obtain ⟨⟨⟨k1, k2, k3⟩, k4⟩, k5⟩ := h2
      have e' : h' = l.reverse ++ [y] := by
        have := congrArg List.reverse e
        simpa using this
      refine ⟨x, h', rfl, fun z hz => k5 z ?_, h1, .inr ⟨l.reverse, y, [], e', k1, k2.symm, k3.symm,
        fun z hz => k4 z (by simpa using hz)⟩⟩
      rw [← e]; simpa using hz

/-- Undisturbed and changed: a choice. -/
theorem choice_of {plat x} (i : InStepR plat x) (u : untoldB x.entry = true)
    (hp : ¬ Entry.Promoted x.entry)
    (hn : ¬ SameContent x.entry.post.getSetEffect x.entry.pre.getSetEffect) :
    ∃ q, FreshChoice plat x.entry q ∧ ¬ Repeats x.entry q := by
  rcases undisturbedR i ⟨untoldB_sound u, hp⟩ with h | ⟨⟨q, hf⟩, _⟩
  · exact absurd h.2.1 hn
  · exact ⟨q, hf, fun hr => hn hr.kept⟩

theorem early_ok : isTakeover early.1 = true := by decide +kernel
theorem mark_ok : isTakeover mark.1 = true := by decide +kernel
theorem late_ok : isTakeover late.1 = true := by decide +kernel

end ClockedDemo

open ClockedDemo in
/-- C162 (refutation). A device that saw a change in the tick from 100 to 110 and takes over in the tick
from 60094 to 60104 never rotates: the reading from which it computes the rest of the 60 s is the one at
which no time is left. -/
theorem paced_takeover_may_stop : ∃ x h s, PacedRun .arduino 0 (x :: h) s ∧ Advancing 0 (x :: h) ∧
    SmallEffectsR h ∧ Entry.Promoted x.entry ∧ LastSeen h 100 110 ∧ began x = 60094 ∧
    ended x = 60104 ∧ PacedNever .arduino s := by
  obtain ⟨x, h, e, h1, h2, h3⟩ := isTakeover_sound mark_ok
  have r : PacedRun .arduino 0 mark.1 mark.2 := drive_run _
  have c : Advancing 0 mark.1 := advancing_of rfl (by decide +kernel)
  have k : mark.1.head?.map (fun x => (began x, ended x)) = some (60094, 60104) := by decide +kernel
  have z : mark.2.timers.changeEffect = 0 := by decide +kernel
  have n := neverR_of_timer (plat := .arduino) r.wf z
  rw [e] at r c k
  simp only [List.head?_cons, Option.map_some, Option.some.injEq, Prod.mk.injEq] at k
  exact ⟨x, h, _, r, c, h1, h2, h3, k.1, k.2, n⟩

open ClockedDemo in
/-- The hypotheses of `paced_takeover_cadence`, 7 s and 64 s after the change. -/
example : (∃ x h s, PacedRun .arduino 0 (x :: h) s ∧ Advancing 0 (x :: h) ∧ SmallEffectsR h ∧
      Entry.Promoted x.entry ∧ LastSeen h 100 110 ∧ ended x < 100 + 60000) ∧
    (∃ x h s, PacedRun .arduino 0 (x :: h) s ∧ Advancing 0 (x :: h) ∧ SmallEffectsR h ∧
      Entry.Promoted x.entry ∧ LastSeen h 100 110 ∧ 110 + 60000 < began x) := by
  constructor
  · obtain ⟨x, h, e, h1, h2, h3⟩ := isTakeover_sound early_ok
    have r : PacedRun .arduino 0 early.1 early.2 := drive_run _
    have c : Advancing 0 early.1 := advancing_of rfl (by decide +kernel)
    have k : early.1.head?.all (fun x => decide (ended x < 100 + 60000)) := by decide +kernel
    rw [e] at r c k
    exact ⟨x, h, _, r, c, h1, h2, h3, of_decide_eq_true k⟩
  · obtain ⟨x, h, e, h1, h2, h3⟩ := isTakeover_sound late_ok
    have r : PacedRun .arduino 0 late.1 late.2 := drive_run _
    have c : Advancing 0 late.1 := advancing_of rfl (by decide +kernel)
    have k : late.1.head?.all (fun x => decide (110 + 60000 < began x)) := by decide +kernel
    rw [e] at r c k
    exact ⟨x, h, _, r, c, h1, h2, h3, of_decide_eq_true k⟩

open ClockedDemo in
/-- The hypotheses of `paced_choice_held` and of `paced_request_held` with delay 3 s. -/
example : (∃ x h s q, PacedRun .arduino 0 (x :: h) s ∧ Advancing 0 (x :: h) ∧
      FreshChoice .arduino x.entry q ∧ ¬ Repeats x.entry q) ∧
    (∃ x h s p, PacedRun .arduino 0 (x :: h) s ∧ Advancing 0 (x :: h) ∧
      x.entry.pre.getCurrentState = .master ∧ Entry.heard x.entry = some p ∧ IsInstruction p ∧
      requestedDelay p = 3) := by
  constructor
  · have r : PacedRun .arduino 0 chosen.1 chosen.2 := drive_run _
    have c : Advancing 0 chosen.1 := advancing_of rfl (by decide +kernel)
    have k : chosen.1.head?.any (fun x => untoldB x.entry && decide (¬ Entry.Promoted x.entry) &&
        decide (¬ SameContent x.entry.post.getSetEffect x.entry.pre.getSetEffect)) := by decide +kernel
    cases e : chosen.1 with
    | nil => rw [e] at k; cases k
    | cons x h =>
      rw [e] at r c k
      simp only [List.head?_cons, Option.any_some, Bool.and_eq_true, decide_eq_true_eq] at k
      obtain ⟨q, h1, h2⟩ := choice_of (paced_step r).2.2 k.1.1 k.1.2 k.2
      exact ⟨x, h, _, q, r, c, h1, h2⟩
  · have r : PacedRun .arduino 0 asked.1 asked.2 := drive_run _
    have c : Advancing 0 asked.1 := advancing_of rfl (by decide +kernel)
    have k : asked.1.head?.any (fun x : Timed => decide (x.entry.pre.getCurrentState = .master) &&
        decide (∃ p, Entry.heard x.entry = some p ∧ (p.type = .setEffect ∧ requestedDelay p = 3))) := by
      decide +kernel
    cases e : asked.1 with
    | nil => rw [e] at k; cases k
    | cons x h =>
      rw [e] at r c k
      simp only [List.head?_cons, Option.any_some, Bool.and_eq_true, decide_eq_true_eq] at k
      obtain ⟨k1, p, k2, k3, k4⟩ := k
      exact ⟨x, h, _, p, r, c, k1, k2, .inl k3, k4⟩

open ClockedDemo in
/-- The hypotheses of `paced_repetitions_apart` and `paced_repetition_due`: what is seen of a run of which
steps 4 and 7 are repetitions, newest step first. -/
theorem paced_repetition_demo :
    PacedRun .arduino 0 repeating.1 repeating.2 ∧ Advancing 0 repeating.1 ∧
    repeating.1.map (fun x => (summary x.entry, repeatsB x.entry)) =
      [(⟨11020, true, .master, .master, none, [.setEffect], true⟩, true),
       (⟨10050, true, .master, .master, none, [.heartbeat], true⟩, false),
       (⟨9030, true, .master, .master, none, [.heartbeat], true⟩, false),
       (⟨9010, true, .master, .master, none, [.setEffect], true⟩, true),
       (⟨8020, true, .master, .master, none, [.heartbeat], true⟩, false),
       (⟨7000, true, .slave, .master, none, [.heartbeat], true⟩, false),
       (⟨100, true, .slave, .slave, some .setEffect, [.setEffect], true⟩, false)] :=
  ⟨drive_run _, advancing_of rfl (by decide +kernel), by decide +kernel⟩

end Firefly.Props
