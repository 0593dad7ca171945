import Verif.Props.FakeReset

/-! # A course with resets (C146) -/

namespace Firefly.Props
open Spec FakeNet

namespace FakeNetwork

/-- After the 27th `Tick` the first device is reset, after the 52nd the second one. -/
def resetAt (k : Nat) : List (Fin 2) := if k = 27 then [0] else if k = 52 then [1] else []

/-- Eight seconds pass before the first `Tick` and nine before the 61st, else a millisecond. -/
def resetPause (k : Nat) : U32 := if k = 0 then 8000 else if k = 60 then 9000 else 1

/-- The random numbers of a device after its reset. -/
def again (i : Fin 2) : Rand := fun n => 19 * n + 5000 + 3000 * i.val

/-- Resets of the devices in a list. -/
def resetAll (l : List (Fin 2)) (net : FakeNet 2) : Except Fault (FakeNet 2) :=
  l.foldlM (fun net i => net.reinitNode i (again i) junk junk ⟨0, 0, 0⟩) net

theorem resetAll_resets {l : List (Fin 2)} {net mid : FakeNet 2} (h : resetAll l net = .ok mid) :
    Resets l net mid := by
  induction l generalizing net with
  | nil =>
    have := Except.ok.inj h
    subst this
    exact .nil _
  | cons i l ih =>
    unfold resetAll at h
    rw [List.foldlM_cons] at h
    obtain ⟨net₁, h1, h2⟩ := Node.bind_ok h
    exact .cons _ _ _ _ h1 (ih h2)

/-- A network of two after `k` `Tick`s. -/
def reset (r : Fin 2 → Rand) : Nat → Except Fault (FakeNet 2)
  | 0 => two r
  | k + 1 => do
    let net ← reset r k
    let mid ← resetAll (resetAt k) net
    (mid.advanceMillis (resetPause k)).tick fun _ => 1

/-- A network where there is none. -/
def noNet : FakeNet 2 := ⟨0, fun _ => .init, fun _ => .init 0 (fun _ => 0) junk junk, none, 0⟩

/-- The same, where it exists. -/
def resetNet (k : Nat) : FakeNet 2 := (reset apart k).toOption.getD noNet

/-- The same, after the resets that follow. -/
def resetMid (k : Nat) : FakeNet 2 := (resetAll (resetAt k) (resetNet k)).toOption.getD noNet

end FakeNetwork

open FakeNetwork in
/-- A concrete case of C146: the two devices of the example of C137.  The second becomes master.  The
first is reset, and the second stays master.  The second is reset, and there is no master until the
clock jumps; then both become master, and the second remains. -/
theorem reset_demo_course : ResetCourse resetNet resetMid resetAt resetPause 70 ∧
    OnlyMaster (resetNet 27) 1 ∧ OnlyMaster (resetNet 52) 1 ∧
    (∀ k, 52 < k → k ≤ 60 → (resetNet k).getNumMasters = 0) ∧
    (resetNet 61).getNumMasters = 2 ∧ OnlyMaster (resetNet 64) 1 := by
  have run : ∀ k ≤ 70, reset apart k = .ok (resetNet k) := by
    have h : ∀ k < 71, (reset apart k).toOption.isSome = true := by decide +kernel
    intro k hk
    have := h k (by omega)
    unfold resetNet
    cases e : reset apart k with
    | error f => rw [e] at this; cases this
    | ok net => rfl
  have mids : ∀ k ≤ 69, resetAll (resetAt k) (resetNet k) = .ok (resetMid k) := by
    have h : ∀ k < 70, (resetAll (resetAt k) (resetNet k)).toOption.isSome = true := by
      decide +kernel
    intro k hk
    have := h k (by omega)
    unfold resetMid
    cases e : resetAll (resetAt k) (resetNet k) with
    | error f => rw [e] at this; cases this
    | ok net => rfl
  have checks : ∀ k < 70, isFresh ((resetMid k).advanceMillis (resetPause k))
      (resetNet (k + 1)) = true := by
    decide +kernel
  have ones : ∀ j < 53, 5 ≤ j → (resetNet j).getNumMasters = 1 := by decide +kernel
  have when : ∀ k, resetAt k ≠ [] → k = 27 ∨ k = 52 := by
    intro k h
    unfold resetAt at h
    split at h
    · exact .inl ‹_›
    · split at h
      · exact .inr ‹_›
      · exact absurd rfl h
  have pace : ∀ k < 70, (resetNet k).getNumMasters ≠ 0 ∨ (resetNet k).packet.isSome = true →
      resetPause k = 1 := by
    decide +kernel
  have early : ∀ k < 70, (resetMid k).getNumMasters = 0 →
      (resetNet k).now.toNat + (resetPause k).toNat ≤ 50000 := by
    decide +kernel
  have clock : ∀ k < 71, (resetNet k).now.toNat + 255000 < 2 ^ 32 := by decide +kernel
  refine ⟨⟨two_booted (run 0 (by decide)), fun k hk => resetAll_resets (mids k (by omega)),
    fun k hk => ⟨fun _ => 1, ?_⟩, fun k hk => isFresh_sound (checks k hk),
    fun k hk h j h1 h2 => ?_,
    fun k hk h => pace k hk (h.imp_right fun h => by
      cases e : (resetNet k).packet with
      | none => exact absurd e h
      | some p => rfl),
    early, fun k hk => clock k (by omega)⟩, ?_, ?_, ?_, by decide +kernel, ?_⟩
  · have := run (k + 1) (by omega)
    rw [reset, run k (by omega)] at this
    simp only [bind, Except.bind, mids k (by omega)] at this
    exact this
  · have := when k h
    refine ⟨ones j (by omega) (by omega), fun h3 => ?_⟩
    by_cases e : resetAt j = []
    · exact e
    · have := when j e
      omega
  · have : ∀ i : Fin 2, ((resetNet 27).node i).getCurrentState =
        if i = 1 then .master else .slave := by decide +kernel
    exact this
  · have : ∀ i : Fin 2, ((resetNet 52).node i).getCurrentState =
        if i = 1 then .master else .slave := by decide +kernel
    exact this
  · have : ∀ k < 61, 52 < k → (resetNet k).getNumMasters = 0 := by decide +kernel
    exact fun k h1 h2 => this k (by omega) h1
  · have : ∀ i : Fin 2, ((resetNet 64).node i).getCurrentState =
        if i = 1 then .master else .slave := by decide +kernel
    exact this

open FakeNetwork in
/-- The reset of the first device leaves the second master. -/
example : OnlyMaster (resetNet 28) 1 :=
  reset_others_keeps_master reset_demo_course.1 (by decide) (by decide) reset_demo_course.2.1
    (by decide)

open FakeNetwork in
/-- The master was lost in the 53rd `Tick` because it was reset. -/
example : ∃ A ∈ resetAt 52, OnlyMaster (resetNet 52) A :=
  reset_master_lost reset_demo_course.1 (by decide) (by decide)
    (by rw [getNumMasters_one reset_demo_course.2.2.1]; decide)
    (reset_demo_course.2.2.2.1 53 (by decide) (by decide))

open FakeNetwork in
/-- The time without a master is bounded. -/
example : (resetNet 60).now.toNat ≤ (resetNet 52).now.toNat + (7001 + 4 * 2) :=
  reset_master_replaced reset_demo_course.1 (by decide) (j := 60) (by decide) (by decide)
    (by rw [getNumMasters_one reset_demo_course.2.2.1]; decide) reset_demo_course.2.2.2.1

open FakeNetwork in
/-- Two `Tick`s after the two masters appeared there is one. -/
example : ∃ A, OnlyMaster (resetNet 63) A :=
  (reset_one_master reset_demo_course.1 (by decide) (k := 60) (by decide)
    (reset_demo_course.2.2.2.1 60 (by decide) (by decide))
    (by rw [reset_demo_course.2.2.2.2.1]; decide)).2

open FakeNetwork in
/-- And so there is at the end. -/
example : ∃ A, OnlyMaster (resetNet 70) A :=
  reset_recovers reset_demo_course.1 (by decide) (k := 52) (m := 61) ⟨1, reset_demo_course.2.2.1⟩
    (by decide) (by decide +kernel) (by decide) (j := 70) (by decide) (by decide)
    (fun i h1 h2 => by unfold resetAt; rw [if_neg (by omega), if_neg (by omega)])

end Firefly.Props
