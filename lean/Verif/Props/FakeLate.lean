import Verif.Props.FakeElection

/-! # An election more than a minute after the last change of effect (C137, C146) -/

namespace Firefly.Props
open Spec FakeNet

namespace FakeNetwork

/-- The random numbers of the three devices: middling, small and large ones. -/
def lateRand (i : Fin 3) : Rand := fun n => [30000, 100, 50000].getD i.val 0 + 13 * n

/-- A network of three devices as the constructor makes it. -/
def three : Except Fault (FakeNet 3) := do
  let a ← FakeNet.boot 1 (lateRand 0) junk junk ⟨0, 0, 0⟩
  let b ← FakeNet.boot 2 (lateRand 1) junk junk ⟨0, 0, 0⟩
  let c ← FakeNet.boot 3 (lateRand 2) junk junk ⟨0, 0, 0⟩
  return { now := 3, radio := fun i => if i = 0 then a.radio else if i = 1 then b.radio else c.radio,
           node := fun i => if i = 0 then a.node else if i = 1 then b.node else c.node,
           packet := none, loss := 0 }

theorem three_booted {net} (h : three = .ok net) : net.Booted := by
  unfold three at h
  obtain ⟨a, ha, h⟩ := Node.bind_ok h
  obtain ⟨b, hb, h⟩ := Node.bind_ok h
  obtain ⟨c, hc, h⟩ := Node.bind_ok h
  cases h
  refine ⟨rfl, fun i => ?_, rfl, rfl⟩
  match i with
  | 0 => exact ⟨_, junk, junk, ⟨0, 0, 0⟩, ha⟩
  | 1 => exact ⟨_, junk, junk, ⟨0, 0, 0⟩, hb⟩
  | 2 => exact ⟨_, junk, junk, ⟨0, 0, 0⟩, hc⟩

/-- A minute and a second pass before the first `Tick`, then a millisecond before each. -/
def latePause (k : Nat) : U32 := if k = 0 then 61000 else 1

/-- The network after `k` `Tick`s. -/
def lateRun : Nat → Except Fault (FakeNet 3)
  | 0 => three
  | k + 1 => do
    let net ← lateRun k
    (net.advanceMillis (latePause k)).tick fun _ => 1

/-- The same, where it exists. -/
def lateNet (k : Nat) : FakeNet 3 :=
  (lateRun k).toOption.getD ⟨0, fun _ => .init, fun _ => .init 0 (fun _ => 0) junk junk, none, 0⟩

/-- `Fresh`, computed. -/
def isFreshAny {n} (net net' : FakeNet n) : Bool :=
  (List.finRange n).all fun i => decide ((own net net' i).map (·.id)).Nodup &&
    (own net net' i).all fun p => (List.finRange n).all fun j =>
      decide (p.id ∉ memory (net.node j)) && net.packet.all (fun q => p.id != q.id) &&
      (net.radio j).sent.all (fun q => p.id != q.id) &&
      (decide (i = j) || (own net net' j).all fun q => p.id != q.id)

theorem isFreshAny_sound {n} {net net' : FakeNet n} (h : isFreshAny net net' = true) :
    Fresh net net' := by
  simp only [isFreshAny, List.all_eq_true, Bool.and_eq_true, decide_eq_true_eq, bne_iff_ne,
    Bool.or_eq_true, Option.all_eq_true] at h
  have m := fun i : Fin n => List.mem_finRange i
  exact ⟨fun i p hp j => ((((h i (m i)).2 p hp j (m j)).1).1).1,
    fun i p hp q hq => ((((h i (m i)).2 p hp i (m i)).1).1).2 q hq,
    fun i p hp j q hq => (((h i (m i)).2 p hp j (m j)).1).2 q hq,
    fun i j hij p hp q hq => (((h i (m i)).2 p hp j (m j)).2).resolve_left hij q hq,
    fun i => (h i (m i)).1⟩

end FakeNetwork
open FakeNetwork in
/-- C137, why the master has to appear in time: a master elected more than a minute after the last
change of effect tells a new effect two `Tick`s later, which may overwrite a claim in its radio.  In
this network all is as in C137, but the clock is advanced by 61 s at first: three devices become
masters at once, and two of them are still masters 39 `Tick`s later. -/
theorem late_election_two_masters :
    (lateNet 0).Booted ∧
    (∀ k < 40, ((lateNet k).advanceMillis (latePause k)).tick (fun _ => 1) = .ok (lateNet (k + 1))) ∧
    (∀ k < 40, Fresh ((lateNet k).advanceMillis (latePause k)) (lateNet (k + 1))) ∧
    (∀ k < 40, (lateNet k).getNumMasters ≠ 0 → latePause k = 1) ∧
    (lateNet 1).getNumMasters = 3 ∧ ∀ k, 2 ≤ k → k ≤ 40 → (lateNet k).getNumMasters = 2 := by
  have h : ∀ k < 41, (lateRun k).toOption.isSome = true ∧
      (2 ≤ k → (lateNet k).getNumMasters = 2) := by decide +kernel
  have checks : ∀ k < 40, isFreshAny ((lateNet k).advanceMillis (latePause k)) (lateNet (k + 1)) =
      true := by decide +kernel
  have pace : ∀ k < 40, (lateNet k).getNumMasters ≠ 0 → latePause k = 1 := by decide +kernel
  have run : ∀ k ≤ 40, lateRun k = .ok (lateNet k) := by
    intro k hk
    have := (h k (by omega)).1
    unfold lateNet
    cases e : lateRun k with
    | error f => rw [e] at this; cases this
    | ok net => rfl
  refine ⟨three_booted (run 0 (by decide)), fun k hk => ?_, fun k hk => isFreshAny_sound (checks k hk),
    pace, by decide +kernel, fun k h1 h2 => (h k (by omega)).2 h1⟩
  have h := run (k + 1) (by omega)
  unfold lateRun at h
  rw [run k (by omega)] at h
  exact h

end Firefly.Props
