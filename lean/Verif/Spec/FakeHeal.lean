import Verif.Spec.FakeLoss

/-! # Specification vocabulary for the recovery of the network of the integration tests -/

namespace Firefly.Spec

/-- A course in which the network recovers.  In the first `K` `Tick`s anything may happen: devices
are reset, packets are lost, the clock jumps.  Then no packet is on its way, and from then on nothing
is reset and no packets are lost, the clock advances by a millisecond per `Tick` and does not come
near its end, and the packet numbers drawn are not in use. -/
structure HealCourse {n} (net mid : Nat → FakeNet n) (R : Nat → List (Fin n)) (loss : Nat → Int)
    (d : Nat → U32) (draws : Nat → Fin n → Nat) (K N : Nat) : Prop where
  before : AnyCourse net mid R loss d draws K
  quiet : (net K).packet = none ∧ ∀ i, ((net K).radio i).sent = none
  step : ∀ k, K ≤ k → k < N →
    ∃ z, (((net k).setPacketLoss 0).advanceMillis 1).tick z = .ok (net (k + 1))
  fresh : ∀ k, K ≤ k → k < N → Fresh (((net k).setPacketLoss 0).advanceMillis 1) (net (k + 1))
  clock : ∀ k, K ≤ k → k ≤ N → (net k).now.toNat + 255000 < 2 ^ 32

/-- In a `Tick` from `net` to `net'` some device transmits, on its own account, something else than
a heartbeat or a claim: it tells the others the effect. -/
def TellsEffect {n} (net net' : FakeNet n) : Prop :=
  ∃ i, ∃ p ∈ own net net' i, p.type ≠ .heartbeat ∧ p.type ≠ .claimMaster

end Firefly.Spec
