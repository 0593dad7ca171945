import Verif.Model.FakeNetwork
import Verif.Spec.Fakes

/-! # Specification vocabulary for the network of the integration tests -/

namespace Firefly.Spec

/-- The packet that waits in the radio of device `i` at the end of a `Tick` from `net` to `net'`,
before the network takes one: the last one the device transmitted in this `Tick`, or else the one
that was left from before. -/
def Waiting {n} (net net' : FakeNet n) (i : Fin n) : Option Packet :=
  ((net'.node i).sent.drop (net.node i).sent.length).getLast?.or (net.radio i).sent

/-- What a `Tick` of the test network does, if device `i` is to hear `rx i`. -/
structure Round {n} (net net' : FakeNet n) (rx : Fin n → Option Packet) : Prop where
  now : net'.now = net.now
  loss : net'.loss = net.loss
  /-- Every device runs its `Tick`, hearing `rx`. -/
  ticks : ∀ i, (net.node i).tick .host net.now (rx i) net.now (rx i) = .ok (net'.node i)
  /-- The network takes the packet of the first device in whose radio one waits. -/
  taken : ((∀ i, Waiting net net' i = none) ∧ net'.packet = none ∧ ∀ i, (net'.radio i).sent = none) ∨
    ∃ k p, (∀ i < k, Waiting net net' i = none) ∧ Waiting net net' k = some p ∧
      net'.packet = some p ∧
      ∀ i, (net'.radio i).sent = if i = k then none else Waiting net net' i

/-- The numbers of the last five packets a device transmitted (numbers missing count as 0): those
it ignores (cf. C128). -/
def memory (s : Node) : List U16 := lastFive (s.sent.map (·.id)).reverse

/-- What device `i` transmitted in a `Tick` from `net` to `net'` on its own account: without the
packet it heard and passed on, if the number of that packet was new to it. -/
def own {n} (net net' : FakeNet n) (i : Fin n) : List Packet :=
  ((net'.node i).sent.drop (net.node i).sent.length).drop
    (if ∃ p ∈ net.packet, p.id ∉ memory (net.node i) then 1 else 0)

/-- The packet numbers drawn in a `Tick` from `net` to `net'` are not in use: no device remembers
them, no packet on its way has them, and they are different. -/
structure Fresh {n} (net net' : FakeNet n) : Prop where
  memory : ∀ i, ∀ p ∈ own net net' i, ∀ j, p.id ∉ memory (net.node j)
  packet : ∀ i, ∀ p ∈ own net net' i, ∀ q ∈ net.packet, p.id ≠ q.id
  radio : ∀ i, ∀ p ∈ own net net' i, ∀ j, ∀ q ∈ (net.radio j).sent, p.id ≠ q.id
  others : ∀ i j, i ≠ j → ∀ p ∈ own net net' i, ∀ q ∈ own net net' j, p.id ≠ q.id
  same : ∀ i, ((own net net' i).map (·.id)).Nodup

/-- What a test lets a network do from its construction on: `net k` is the network after `k` `Tick`s,
and the clock is advanced by `d k` before the next one.  Until a master appears, which has to be in
the first 50 s, the clock may be advanced at will; from then on a millisecond at a time.  No packets
are lost, the packet numbers drawn are not in use, and the clock does not come near its end (49
days). -/
structure Course {n} (net : Nat → FakeNet n) (d : Nat → U32) (N : Nat) : Prop where
  start : (net 0).Booted
  step : ∀ k < N, ∃ draws, ((net k).advanceMillis (d k)).tick draws = .ok (net (k + 1))
  fresh : ∀ k < N, Fresh ((net k).advanceMillis (d k)) (net (k + 1))
  early : ∀ k < N, (net k).getNumMasters = 0 → (net k).now.toNat + (d k).toNat ≤ 50000
  pace : ∀ k < N, (net k).getNumMasters ≠ 0 → d k = 1
  clock : ∀ k ≤ N, (net k).now.toNat + 255000 < 2 ^ 32

/-- Device `A` is master and all others are slaves. -/
def OnlyMaster {n} (net : FakeNet n) (A : Fin n) : Prop :=
  ∀ i, (net.node i).getCurrentState = if i = A then .master else .slave

/-- A packet as the devices of the test network exchange it: a heartbeat with a time, a claim, or an
instruction for one of the 27 effects meant for random choice and one of the 22 palettes. -/
def Regular (p : Packet) : Prop :=
  (p.type = .heartbeat ∧ p.len = 4) ∨ p.type = .claimMaster ∨
    (p.type = .setEffect ∧ p.len = 3 ∧ p.data[0].toNat < 27 ∧ p.data[2].toNat < 22)

end Firefly.Spec
