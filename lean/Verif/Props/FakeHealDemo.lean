import Verif.Props.FakeHeal
import Verif.Lemmas.Rotation

/-! # A repetition can spoil a contest (C149) -/

namespace Firefly.Props
open Spec FakeNet

namespace FakeNetwork

/-- The times of the first eight `Tick`s. -/
def spoilTimes : List U32 := [5100, 5600, 6599, 6619, 6620, 7101, 7102, 7599]

/-- The random numbers of the two devices. -/
def spoilRand (i : Fin 2) : Rand :=
  fun n => 17 * n + 100 * i.val + if i = 0 ∧ 5 ≤ n then 1000 else 0

/-- In the first eight `Tick`s everything is lost, then nothing. -/
def spoilLoss (k : Nat) : Int := if k < 8 then 1 else 0

/-- A network of two after `k` `Tick`s. -/
def spoiled : Nat → Except Fault (FakeNet 2)
  | 0 => two spoilRand
  | k + 1 => do
    let net ← spoiled k
    ((net.setPacketLoss (spoilLoss k)).advanceMillis
      (if k < 8 then spoilTimes.getD k 0 - net.now else 1)).tick fun _ => 1

/-- The same, where it exists. -/
def spoilNet (k : Nat) : FakeNet 2 := spoiled k |>.toOption.getD noNet

/-- By how much the clock is advanced. -/
def spoilPause (k : Nat) : U32 := if k < 8 then spoilTimes.getD k 0 - (spoilNet k).now else 1

end FakeNetwork

open FakeNetwork in
/-- A concrete case of C149 in which two devices are masters when packets are no longer lost. -/
theorem spoil_demo_course :
    HealCourse spoilNet spoilNet (fun _ => []) spoilLoss spoilPause (fun _ _ => 1) 8 45 := by
  have run : ∀ k ≤ 45, spoiled k = .ok (spoilNet k) := by
    have h : ∀ k < 46, (spoiled k).toOption.isSome = true := by decide +kernel
    intro k hk
    have := h k (by omega)
    unfold spoilNet
    cases e : spoiled k with
    | error f => rw [e] at this; cases this
    | ok net => rfl
  have step : ∀ k < 45, (((spoilNet k).setPacketLoss (spoilLoss k)).advanceMillis (spoilPause k)).tick
      (fun _ => 1) = .ok (spoilNet (k + 1)) := by
    intro k hk
    have := run (k + 1) (by omega)
    rw [spoiled, run k (by omega)] at this
    exact this
  have checks : ∀ k < 45, 8 ≤ k → isFresh (((spoilNet k).setPacketLoss 0).advanceMillis 1)
      (spoilNet (k + 1)) = true := by
    decide +kernel
  have clock : ∀ k < 46, (spoilNet k).now.toNat + (spoilPause k).toNat + 255000 < 2 ^ 32 := by
    decide +kernel
  have quiet : (spoilNet 8).packet.isNone = true ∧
      ∀ i : Fin 2, ((spoilNet 8).radio i).sent.isNone = true := by decide +kernel
  have late : ∀ k, 8 ≤ k → spoilLoss k = 0 ∧ spoilPause k = 1 := by
    intro k hk
    unfold spoilLoss spoilPause
    rw [if_neg (by omega), if_neg (by omega)]
    exact ⟨rfl, rfl⟩
  refine ⟨⟨two_booted (run 0 (by decide)), fun k _ => .nil _, fun k hk => step k (by omega),
      fun k hk => clock k (by omega)⟩, ⟨Option.isNone_iff_eq_none.1 quiet.1,
      fun i => Option.isNone_iff_eq_none.1 (quiet.2 i)⟩,
    fun k hK hk => ⟨fun _ => 1, ?_⟩, fun k hK hk => isFresh_sound (checks k hk hK), fun k _ hk => ?_⟩
  · have := step k hk
    rw [(late k hK).1, (late k hK).2] at this
    exact this
  · have := clock k (by omega)
    omega

open FakeNetwork in
/-- C149: the silence matters.  Here a heartbeat of the first device is heard, the second claims, but
tells the effect in the same `Tick`, so that its claim is never heard: both are still masters 13
`Tick`s later. -/
theorem heal_needs_silence :
    (∃ q, (spoilNet 9).packet = some q ∧ q.type = .heartbeat ∧
      ∃ i, q.id ∉ memory ((spoilNet 9).node i)) ∧
    TellsEffect (spoilNet 9) (spoilNet 10) ∧ (spoilNet 22).getNumMasters = 2 := by
  have air : ((spoilNet 9).packet.any fun q => decide (q.type = .heartbeat) &&
      decide (q.id ∉ memory ((spoilNet 9).node 1))) = true := by decide +kernel
  have tells : ((own (spoilNet 9) (spoilNet 10) 1).any fun p =>
      decide (p.type = .setEffect)) = true := by decide +kernel
  refine ⟨?_, ?_, by decide +kernel⟩
  · cases e : (spoilNet 9).packet with
    | none => rw [e] at air; cases air
    | some q =>
      rw [e] at air
      simp only [Option.any_some, Bool.and_eq_true, decide_eq_true_eq] at air
      exact ⟨q, rfl, air.1, 1, air.2⟩
  · obtain ⟨p, hp, hpt⟩ := List.any_eq_true.1 tells
    have hpt : p.type = .setEffect := by simpa using hpt
    exact ⟨1, p, hp, by rw [hpt]; simp, by rw [hpt]; simp⟩

open FakeNetwork in
/-- C149: the show may be stuck afterwards.  In the same network the first device hears the effect
from the second while both are masters.  It becomes the only master, and from then on never changes
the effect again, however long it runs undisturbed. -/
theorem heal_can_stop_rotation :
    (∀ j, 42 ≤ j → j ≤ 45 → OnlyMaster (spoilNet j) 0) ∧
      NeverRotates .host ((spoilNet 45).node 0) := by
  have c := spoil_demo_course
  have h : ∀ j < 46, 42 ≤ j → ∀ i : Fin 2, ((spoilNet j).node i).getCurrentState =
      if i = 0 then .master else .slave := by decide +kernel
  refine ⟨fun j h1 h2 => h j (by omega) h1, ?_⟩
  obtain ⟨s₀, cur, cl⟩ := c.clean (by decide) (k := 45) (by decide) (by decide)
  have t : ((spoilNet 45).node 0).timers.changeEffect = 0 := by decide +kernel
  generalize spoilNet 45 = last at t cl ⊢
  exact never_of_timer (cl.sound 0).wf t

open FakeNetwork in
/-- In the same network the second device's next heartbeat, without a word on the effect, settled
the matter, as in C149. -/
example : ∃ A, ∀ j, 42 ≤ j → j ≤ 45 → OnlyMaster (spoilNet j) A := by
  have air : ((spoilNet 29).packet.any fun q => decide (q.type = .heartbeat) &&
      decide (q.id ∉ memory ((spoilNet 29).node 0))) = true := by decide +kernel
  have calm : ∀ j < 42, 29 ≤ j → ∀ i : Fin 2, ((own (spoilNet j) (spoilNet (j + 1)) i).all fun p =>
      decide (p.type = .heartbeat) || decide (p.type = .claimMaster)) = true := by decide +kernel
  cases e : (spoilNet 29).packet with
  | none => rw [e] at air; cases air
  | some q =>
    rw [e] at air
    simp only [Option.any_some, Bool.and_eq_true, decide_eq_true_eq] at air
    refine heal_one_master spoil_demo_course (by decide) (k := 29) (by decide) (by decide) e air.1
      ⟨0, air.2⟩ fun j h1 h2 => ?_
    rintro ⟨i, p, hp, h3, h4⟩
    have := List.all_eq_true.1 (calm j (by omega) h1 i) p hp
    simp [h3, h4] at this

end Firefly.Props
