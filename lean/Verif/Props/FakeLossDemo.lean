import Verif.Props.FakeLoss

/-! # A course with packet loss (C148) -/

namespace Firefly.Props
open Spec FakeNet

namespace FakeNetwork

/-- After the 28th `Tick` the first device is reset, and again after the 52nd. -/
def lossAt (k : Nat) : List (Fin 2) := if k = 28 ∨ k = 52 then [0] else []

/-- Eight seconds pass before the first `Tick`, then a millisecond each. -/
def lossPause (k : Nat) : U32 := if k = 0 then 8000 else 1

/-- From the fourth `Tick` on, half of the packets are lost. -/
def lossRate (k : Nat) : Int := if k < 3 then 0 else 2

/-- A network of two after `k` `Tick`s. -/
def lossy (r : Fin 2 → Rand) : Nat → Except Fault (FakeNet 2)
  | 0 => two r
  | k + 1 => do
    let net ← lossy r k
    let mid ← resetAll (lossAt k) net
    ((mid.setPacketLoss (lossRate k)).advanceMillis (lossPause k)).tick fun i => k + 1 + i.val

/-- The same, where it exists. -/
def lossNet (k : Nat) : FakeNet 2 := (lossy apart k).toOption.getD noNet

/-- The same, after the resets that follow. -/
def lossMid (k : Nat) : FakeNet 2 := (resetAll (lossAt k) (lossNet k)).toOption.getD noNet

end FakeNetwork

open FakeNetwork in
/-- A concrete case of C148: the two devices of the example of C137.  After three `Tick`s the second
is the only master.  From then on half of what is sent is lost to one device or the other; the claim
of the second that the first passes on is lost to the second.  The first device is reset twice. -/
theorem loss_demo_course : LossCourse lossNet lossMid lossAt lossPause 3 70 1 ∧
    (lossNet 3).packet.isSome = true ∧ (lossNet 4).packet = none := by
  have run : ∀ k ≤ 70, lossy apart k = .ok (lossNet k) := by
    have h : ∀ k < 71, (lossy apart k).toOption.isSome = true := by decide +kernel
    intro k hk
    have := h k (by omega)
    unfold lossNet
    cases e : lossy apart k with
    | error f => rw [e] at this; cases this
    | ok net => rfl
  have mids : ∀ k ≤ 69, resetAll (lossAt k) (lossNet k) = .ok (lossMid k) := by
    have h : ∀ k < 70, (resetAll (lossAt k) (lossNet k)).toOption.isSome = true := by
      decide +kernel
    intro k hk
    have := h k (by omega)
    unfold lossMid
    cases e : resetAll (lossAt k) (lossNet k) with
    | error f => rw [e] at this; cases this
    | ok net => rfl
  have step : ∀ k < 70, (((lossMid k).setPacketLoss (lossRate k)).advanceMillis (lossPause k)).tick
      (fun i => k + 1 + i.val) = .ok (lossNet (k + 1)) := by
    intro k hk
    have := run (k + 1) (by omega)
    rw [lossy, run k (by omega)] at this
    simp only [bind, Except.bind, mids k (by omega)] at this
    exact this
  have zero : ∀ k < 3, (lossMid k).loss = 0 := by decide +kernel
  have same : ∀ k < 3, (lossMid k).setPacketLoss (lossRate k) = lossMid k := by
    intro k hk
    have : lossRate k = (lossMid k).loss := by
      rw [zero k hk]; unfold lossRate; rw [if_pos hk]
    rw [this]; rfl
  have checks : ∀ k < 3, isFresh ((lossMid k).advanceMillis (lossPause k))
      (lossNet (k + 1)) = true := by
    decide +kernel
  have when : ∀ k, lossAt k ≠ [] → k = 28 ∨ k = 52 := by
    intro k h
    unfold lossAt at h
    split at h
    · assumption
    · exact absurd rfl h
  have none : ∀ k < 3, lossAt k = [] := by decide
  have early : ∀ k < 3, (lossMid k).getNumMasters = 0 →
      (lossNet k).now.toNat + (lossPause k).toNat ≤ 50000 := by
    decide +kernel
  have pace : ∀ k < 3, (lossNet k).getNumMasters ≠ 0 ∨ (lossNet k).packet.isSome = true →
      lossPause k = 1 := by
    decide +kernel
  have clock : ∀ k < 71, (lossNet k).now.toNat + 255000 < 2 ^ 32 := by decide +kernel
  have times : ∀ k < 71, 0 < k → (lossNet k).now.toNat < (lossNet 1).now.toNat + 5000 := by
    decide +kernel
  have one : ∀ i : Fin 2, ((lossNet 3).node i).getCurrentState =
      if i = 1 then .master else .slave := by decide +kernel
  have beat : ((((lossNet 1).node 0).sent.drop ((lossMid 0).node 0).sent.length).any
      fun p => decide (p.type = .heartbeat)) = true := by decide +kernel
  have quiet : (lossNet 4).packet.isNone = true := by decide +kernel
  refine ⟨⟨⟨two_booted (run 0 (by decide)), fun k hk => resetAll_resets (mids k (by omega)),
    fun k hk => ⟨fun i => k + 1 + i.val, by rw [← same k hk]; exact step k (by omega)⟩,
    fun k hk => isFresh_sound (checks k hk),
    fun k hk h => absurd (none k hk) h,
    fun k hk h => pace k hk (h.imp_right fun h => by
      cases e : (lossNet k).packet with
      | none => exact absurd e h
      | some p => rfl),
    early, fun k hk => clock k (by omega)⟩, ⟨2, rfl, by decide +kernel⟩, one,
    fun k _ hk => ⟨resetAll_resets (mids k (by omega)), ?_⟩,
    fun k h3 hk => ⟨lossRate k, fun i => k + 1 + i.val, ?_⟩,
    fun k _ hk h j hj h2 => ?_, fun k h3 hk i hi => .inr ⟨0, by omega, ?_, times k (by omega) (by omega)⟩,
    fun k hk => clock k (by omega)⟩, by decide +kernel, by
      cases e : (lossNet 4).packet with
      | none => rfl
      | some p => rw [e] at quiet; cases quiet⟩
  · unfold lossAt; split <;> simp
  · have e : lossPause k = 1 := by unfold lossPause; rw [if_neg (by omega)]
    rw [← e]; exact step k hk
  · have := when k h
    by_cases e : lossAt j = []
    · exact e
    · have := when j e
      omega
  · have : i = 0 := by omega
    subst this
    obtain ⟨p, hp, hpt⟩ := List.any_eq_true.1 beat
    exact ⟨p, hp, by simpa using hpt⟩

open FakeNetwork in
/-- The second device is the only master throughout. -/
example {k : Nat} (h1 : 3 ≤ k) (h2 : k ≤ 70) : OnlyMaster (lossNet k) 1 :=
  loss_keeps_master loss_demo_course.1 (by decide) h1 h2

open FakeNetwork in
/-- The network falls quiet. -/
example : ∃ j, 3 < j ∧ j ≤ 26 ∧ (lossNet j).packet = none ∧ ∀ i, ((lossNet j).radio i).sent = none :=
  loss_falls_quiet loss_demo_course.1 (by decide) (k := 3) (by decide) (by decide)

end Firefly.Props
