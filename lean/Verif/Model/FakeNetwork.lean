import Verif.Model.Fakes
import Verif.Model.Board

/-! # The network of the integration tests (test/FakeNetwork.{hpp,cpp},
test/RadioIntegrationTest.hpp) -/

namespace Firefly

/-- `class FakeNetwork`, test/FakeNetwork.hpp:10-48, for any number `n` of devices
(test/FakeNetwork.hpp:36 has five), and the clock of lib/types/Types.cpp:9.  `packet` is what the
devices will hear in the next `Tick`.  `previous_packet` is never read.  The LED managers are left
out: apart from what their constructor tells the state machine (see `boot`) they only write
LEDs. -/
structure FakeNet (n : Nat) where
  now : U32
  radio : Fin n → FakeRadio
  node : Fin n → Node
  packet : Option Packet
  loss : Int

namespace FakeNet

/-- `FakeNetwork::kNumNodes`, test/FakeNetwork.hpp:36. -/
def kNumNodes : Nat := 5

/-- A device as the constructor of the network makes it (test/FakeNetwork.cpp:15-19) and as
`reinitNode` does (test/FakeNetwork.cpp:85-88): a state machine, to which the constructor of the LED
manager tells the numbers of effects and palettes (lib/led_manager/LedManager.cpp:37-38). -/
def newNode (now : U32) (rand : Rand) (junk junk' : PType × Vector U8 58) (seeds : EffectSeeds) :
    Except Fault Node := do
  let r ← shippedRegistry .host seeds
  return ((Node.init now rand junk junk').setNumEffects r.getNumEffects).setNumPalettes
    (BitVec.ofNat 8 Firefly.palettes.length)

/-- One round of the constructor's loop, test/FakeNetwork.cpp:14-21. -/
def boot (now : U32) (rand : Rand) (junk junk' : PType × Vector U8 58) (seeds : EffectSeeds) :
    Except Fault FakeDevice := do
  let node ← newNode now rand junk junk' seeds
  FakeDevice.step ⟨.init, node⟩ (.tick now now)

/-- `FakeNetwork::FakeNetwork`, test/FakeNetwork.cpp:11-22, for all random numbers: the clock starts
at 0 and is advanced by a millisecond before each device is made. -/
structure Booted {n : Nat} (net : FakeNet n) : Prop where
  now : net.now = BitVec.ofNat 32 n
  device : ∀ i : Fin n, ∃ rand junk junk' seeds,
    boot (BitVec.ofNat 32 (i.val + 1)) rand junk junk' seeds = .ok ⟨net.radio i, net.node i⟩
  packet : net.packet = none
  loss : net.loss = 0

/-- `advanceMillis`, lib/types/Types.cpp:14. -/
def advanceMillis {n} (time : U32) (net : FakeNet n) : FakeNet n := { net with now := net.now + time }

/-- The condition of test/FakeNetwork.cpp:47, where `draw` is what `rand()` returns. -/
def heard (loss : Int) (draw : Nat) : Bool := decide (loss = 0) || decide ((draw : Int) % loss ≠ 0)

/-- The first part of `FakeNetwork::Tick`, test/FakeNetwork.cpp:46-58. -/
def distribute {n} (draws : Fin n → Nat) (net : FakeNet n) : FakeNet n :=
  { net with
    radio := fun i =>
      (net.radio i).setReceivedPacket (if heard net.loss (draws i) then net.packet else none)
    packet := none }

/-- One round of the loop of `FakeNetwork::Tick`, test/FakeNetwork.cpp:62-79. -/
def tickNode {n} (net : FakeNet n) (i : Fin n) : Except Fault (FakeNet n) := do
  let d ← FakeDevice.step ⟨net.radio i, net.node i⟩ (.tick net.now net.now)
  let c : Option Packet × FakeRadio :=
    if net.packet.isNone then d.radio.getSentPacket else (net.packet, d.radio)
  return { net with
    packet := c.1
    radio := fun j => if j = i then c.2 else net.radio j
    node := fun j => if j = i then d.node else net.node j }

/-- `FakeNetwork::Tick`, test/FakeNetwork.cpp:42-80. -/
def tick {n} (draws : Fin n → Nat) (net : FakeNet n) : Except Fault (FakeNet n) :=
  (List.finRange n).foldlM tickNode (net.distribute draws)

/-- `FakeNetwork::reinitNode`, test/FakeNetwork.cpp:82-89: the radio stays as it is. -/
def reinitNode {n} (i : Fin n) (rand : Rand) (junk junk' : PType × Vector U8 58)
    (seeds : EffectSeeds) (net : FakeNet n) : Except Fault (FakeNet n) := do
  let node ← newNode net.now rand junk junk' seeds
  return { net with node := fun j => if j = i then node else net.node j }

/-- `FakeNetwork::setPacketLoss`, test/FakeNetwork.cpp:91. -/
def setPacketLoss {n} (loss : Int) (net : FakeNet n) : FakeNet n := { net with loss := loss }

/-- `FakeNetwork::TransmitPacket`, test/FakeNetwork.cpp:93-97. -/
def transmitPacket {n} (p : Packet) (net : FakeNet n) : FakeNet n :=
  { net with radio := fun i => (net.radio i).setReceivedPacket (some p) }

/-- `RadioIntegrationTest::getNumMasters`, test/RadioIntegrationTest.hpp:14-22. -/
def getNumMasters {n} (net : FakeNet n) : Nat :=
  (List.finRange n).foldl
    (fun k i => if (net.node i).getCurrentState = .master then k + 1 else k) 0

/-- `RadioIntegrationTest::runTicks`, test/RadioIntegrationTest.hpp:24-29. -/
def runTicks {n} (draws : Nat → Fin n → Nat) : Nat → FakeNet n → Except Fault (FakeNet n)
  | 0, net => .ok net
  | k + 1, net => do
    let net ← (net.advanceMillis 1).tick (draws k)
    runTicks draws k net

/-- `RadioIntegrationTest::resetMaster`, test/RadioIntegrationTest.hpp:31-39, for a network of at
least one device: the state looked at is that of the first device in each round. -/
def resetMaster {n} (rand : Fin (n + 1) → Rand) (junk junk' : PType × Vector U8 58)
    (seeds : EffectSeeds) (net : FakeNet (n + 1)) : Except Fault (FakeNet (n + 1)) :=
  (List.finRange (n + 1)).foldlM (fun net i =>
    if (net.node 0).getCurrentState = .master then net.reinitNode i (rand i) junk junk' seeds
    else .ok net) net

/-- What a test does with the network: the calls of test/RadioStateIntegrationTest.cpp:12-219, each
with the random numbers it draws. -/
inductive Act (n : Nat) where
  | advance (time : U32)
  | tick (draws : Fin n → Nat)
  | reinit (i : Fin n) (rand : Rand) (junk junk' : PType × Vector U8 58) (seeds : EffectSeeds)
  | loss (k : Int)
  | transmit (p : Packet)

/-- The effect of a call. test/FakeNetwork.cpp:42-97. -/
def step {n} (net : FakeNet n) : Act n → Except Fault (FakeNet n)
  | .advance time => .ok (net.advanceMillis time)
  | .tick draws => net.tick draws
  | .reinit i rand junk junk' seeds => net.reinitNode i rand junk junk' seeds
  | .loss k => .ok (net.setPacketLoss k)
  | .transmit p => .ok (net.transmitPacket p)

/-- The state after a sequence of calls, oldest first.  Not from /repo: the sequences of calls a
test like test/RadioStateIntegrationTest.cpp:12-219 can make. -/
def after {n} (net : FakeNet n) (acts : List (Act n)) : Except Fault (FakeNet n) :=
  acts.foldlM step net

end FakeNet
end Firefly
