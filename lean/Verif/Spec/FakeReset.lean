import Verif.Spec.FakeNetwork

/-! # Specification vocabulary for the network of the integration tests with resets -/

namespace Firefly.Spec

/-- The devices in the list are reset, one after the other, with any random numbers. -/
inductive Resets {n} : List (Fin n) → FakeNet n → FakeNet n → Prop
  | nil (net) : Resets [] net net
  | cons {i l net net₁ net₂} (rand junk junk' seeds)
      (h : net.reinitNode i rand junk junk' seeds = .ok net₁) (t : Resets l net₁ net₂) :
      Resets (i :: l) net net₂

/-- What a test lets a network do from its construction on if it also resets devices: `net k` is the
network after `k` `Tick`s; then the devices `R k` are reset, which makes it `mid k`, and the clock
is advanced by `d k` before the next `Tick`.  Devices are reset only when there was one master, and
no device was reset, in the last `10 n + 3` `Tick`s, but then any of them and as many as one likes.
The clock is advanced a millisecond at a time while there is a master or a packet is on its way, and
at will otherwise; without a master the network is only in its first 50 s.  No packets are lost, the
packet numbers drawn are not in use, and the clock does not come near its end (49 days). -/
structure ResetCourse {n} (net mid : Nat → FakeNet n) (R : Nat → List (Fin n)) (d : Nat → U32)
    (N : Nat) : Prop where
  start : (net 0).Booted
  reset : ∀ k < N, Resets (R k) (net k) (mid k)
  step : ∀ k < N, ∃ draws, ((mid k).advanceMillis (d k)).tick draws = .ok (net (k + 1))
  fresh : ∀ k < N, Fresh ((mid k).advanceMillis (d k)) (net (k + 1))
  calm : ∀ k < N, R k ≠ [] → ∀ j ≤ k, k < j + (10 * n + 3) →
    (net j).getNumMasters = 1 ∧ (j < k → R j = [])
  pace : ∀ k < N, (net k).getNumMasters ≠ 0 ∨ (net k).packet ≠ none → d k = 1
  early : ∀ k < N, (mid k).getNumMasters = 0 → (net k).now.toNat + (d k).toNat ≤ 50000
  clock : ∀ k ≤ N, (net k).now.toNat + 255000 < 2 ^ 32

end Firefly.Spec
