import Verif.Spec.FakeReset

/-! # Specification vocabulary for the network of the integration tests with packet loss -/

namespace Firefly.Spec

/-- Device `i` transmitted a heartbeat in a `Tick` from `net` to `net'`.  (A slave does so only to
pass on one it heard.) -/
def Beats {n} (net net' : FakeNet n) (i : Fin n) : Prop :=
  ∃ p ∈ (net'.node i).sent.drop (net.node i).sent.length, p.type = .heartbeat

/-- What a test lets a network do that also resets devices and lets packets be lost.  In the first
`K` `Tick`s nothing is lost; then `A` is the only master, and not just since the last `Tick`.  From
then on anything may be lost: the test sets any loss before any `Tick`, and any random numbers are
drawn.  Still, at any time each of the other devices has, less than 5 s ago, passed on a heartbeat or
been reset.  Any devices but `A` are reset, only not in the `10 n + 3` `Tick`s after a reset.  The
clock advances by a millisecond per `Tick`, and does not come near its end. -/
structure LossCourse {n} (net mid : Nat → FakeNet n) (R : Nat → List (Fin n)) (d : Nat → U32)
    (K N : Nat) (A : Fin n) : Prop where
  before : ResetCourse net mid R d K
  settled : ∃ j, K = j + 1 ∧ (net j).getNumMasters ≠ 0
  one : OnlyMaster (net K) A
  reset : ∀ k, K ≤ k → k < N → Resets (R k) (net k) (mid k) ∧ A ∉ R k
  step : ∀ k, K ≤ k → k < N →
    ∃ loss draws, (((mid k).setPacketLoss loss).advanceMillis 1).tick draws = .ok (net (k + 1))
  calm : ∀ k, K ≤ k → k < N → R k ≠ [] → ∀ j < k, k < j + (10 * n + 3) → R j = []
  heard : ∀ k, K ≤ k → k < N → ∀ i, i ≠ A →
    (∃ j ≤ k, i ∈ R j ∧ (net k).now.toNat < (net j).now.toNat + 5000) ∨
    ∃ j < k, Beats (mid j) (net (j + 1)) i ∧ (net k).now.toNat < (net (j + 1)).now.toNat + 5000
  clock : ∀ k ≤ N, (net k).now.toNat + 255000 < 2 ^ 32

/-- Anything a test may let a network do: `net k` is the network after `k` `Tick`s; then the devices
`R k` are reset, which makes it `mid k`, the loss is set to `loss k`, the clock is advanced by `d k`,
and the random numbers `draws k` decide what is lost in the next `Tick`.  The clock does not come
near its end. -/
structure AnyCourse {n} (net mid : Nat → FakeNet n) (R : Nat → List (Fin n)) (loss : Nat → Int)
    (d : Nat → U32) (draws : Nat → Fin n → Nat) (N : Nat) : Prop where
  start : (net 0).Booted
  reset : ∀ k < N, Resets (R k) (net k) (mid k)
  step : ∀ k < N,
    (((mid k).setPacketLoss (loss k)).advanceMillis (d k)).tick (draws k) = .ok (net (k + 1))
  clock : ∀ k < N, (net k).now.toNat + (d k).toNat + 255000 < 2 ^ 32

/-- Whatever is sent in the `Tick` is lost on the way to device `i`, by the random number drawn for
it. -/
def LostOn {n} (loss : Int) (draws : Fin n → Nat) (i : Fin n) : Prop :=
  loss ≠ 0 ∧ (draws i : Int) % loss = 0

end Firefly.Spec
