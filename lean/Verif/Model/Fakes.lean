import Verif.Model.StateMachine
import Verif.Model.LedManager

/-! # The doubles for host programs (lib/fake-radio, lib/fake-led-manager) -/

namespace Firefly

/-- `class FakeRadio`, lib/fake-radio/FakeRadio.hpp:6-23: the packet whose address was handed to
`setReceivedPacket`, as it stands in the memory of the caller, and the packet last sent. -/
structure FakeRadio where
  received : Option Packet
  sent : Option Packet
  deriving DecidableEq, Repr

namespace FakeRadio

/-- `FakeRadio::FakeRadio`, lib/fake-radio/FakeRadio.cpp:5-8. -/
def init : FakeRadio := ⟨none, none⟩

/-- `FakeRadio::readPacket`, lib/fake-radio/FakeRadio.cpp:16-23: false, or true with a copy of the
packet.  The packet stays. -/
def readPacket (s : FakeRadio) : Option Packet := s.received

/-- `FakeRadio::sendPacket`, lib/fake-radio/FakeRadio.cpp:25-30. -/
def sendPacket (s : FakeRadio) (p : Packet) : FakeRadio := { s with sent := some p }

/-- The cells written by the loop of `FakeRadio::setReceivedPacket`, lib/fake-radio/FakeRadio.cpp:40:
from `dataLength` to the end of the buffer. -/
def clearedCells (p : Packet) : List Nat :=
  List.range' p.len.toNat (packetDataLength - p.len.toNat)

/-- The loop of `FakeRadio::setReceivedPacket`, lib/fake-radio/FakeRadio.cpp:38-42: zeros in these
cells (all of which exist: C131). -/
def clearTail (p : Packet) : Packet :=
  { p with data := (clearedCells p).foldl (fun d i => d.setIfInBounds i 0) p.data }

/-- `FakeRadio::setReceivedPacket`, lib/fake-radio/FakeRadio.cpp:32-43.  `none` is the null
pointer. -/
def setReceivedPacket (s : FakeRadio) (p : Option Packet) : FakeRadio :=
  { s with received := p.map clearTail }

/-- The caller writes `p` to the packet whose address it handed to `setReceivedPacket`: the radio
kept the address, lib/fake-radio/FakeRadio.cpp:33, and sees it. -/
def rewrite (s : FakeRadio) (p : Packet) : FakeRadio :=
  { s with received := s.received.map fun _ => p }

/-- `FakeRadio::getSentPacket`, lib/fake-radio/FakeRadio.cpp:45-49. -/
def getSentPacket (s : FakeRadio) : Option Packet × FakeRadio := (s.sent, { s with sent := none })

/-- One use of the radio by the program under test (`read`, `send`) or by the test: the public
functions of lib/fake-radio/FakeRadio.hpp:6-24, and writing to the staged packet. -/
inductive Call where
  | read
  | send (p : Packet)
  | stage (p : Option Packet)
  | rewrite (p : Packet)
  | collect

/-- The effect of a call. lib/fake-radio/FakeRadio.cpp:16-49. -/
def Call.step (s : FakeRadio) : Call → FakeRadio
  | .read => s
  | .send p => s.sendPacket p
  | .stage p => s.setReceivedPacket p
  | .rewrite p => s.rewrite p
  | .collect => s.getSentPacket.2

/-- The radio after a sequence of calls (oldest first). lib/fake-radio/FakeRadio.cpp:5-49. -/
def after (calls : List Call) : FakeRadio := calls.foldl Call.step init

end FakeRadio

/-- A state machine on a test radio, as in test/RadioStateMachineTest.cpp:30-38. -/
structure FakeDevice where
  radio : FakeRadio
  node : Node

namespace FakeDevice

/-- The radio and the state machine of a test, test/RadioStateMachineTest.cpp:32-34. -/
def init (now : U32) (rand : Rand) (junk junk' : PType × Vector U8 58) : FakeDevice :=
  ⟨.init, .init now rand junk junk'⟩

/-- What a test does with the two: the calls of test/RadioStateMachineTest.cpp:36-345. -/
inductive Call where
  | stage (p : Option Packet)
  | collect
  | tick (now₁ now₂ : U32)
  | setEffect (now : U32) (p : Packet)
  | setNumPalettes (n : U8)
  | setNumEffects (n : U8)

/-- The packets the state machine handed to the radio go to `FakeRadio::sendPacket` one by one,
src/generic/NetworkManager.cpp:22 and src/generic/NetworkManager.cpp:32. -/
def handOver (radio : FakeRadio) (pre post : Node) : FakeRadio :=
  (post.sent.drop pre.sent.length).foldl FakeRadio.sendPacket radio

/-- One call.  Both radio ticks of a `Tick` (src/generic/RadioStateMachine.cpp:23-36) read what is
staged; what is transmitted meanwhile does not change it. -/
def step (d : FakeDevice) : Call → Except Fault FakeDevice
  | .stage p => .ok { d with radio := d.radio.setReceivedPacket p }
  | .collect => .ok { d with radio := d.radio.getSentPacket.2 }
  | .tick now₁ now₂ => do
    let node ← d.node.tick .host now₁ d.radio.readPacket now₂ d.radio.readPacket
    return ⟨handOver d.radio d.node node, node⟩
  | .setEffect now p => do
    let node ← d.node.setEffect .host now p
    return ⟨handOver d.radio d.node node, node⟩
  | .setNumPalettes n => .ok { d with node := d.node.setNumPalettes n }
  | .setNumEffects n => .ok { d with node := d.node.setNumEffects n }

/-- The state after a sequence of calls, oldest first.  Not from /repo: the sequences of calls a
test like test/RadioStateMachineTest.cpp:30-345 can make. -/
def after (d : FakeDevice) (calls : List Call) : Except Fault FakeDevice := calls.foldlM step d

end FakeDevice

/-- The array allocated by `FakeLedManager::FakeLedManager`,
lib/fake-led-manager/FakeLedManager.cpp:5-11. -/
def FakeLedManager.newLeds (device : Device) : List CRGB :=
  List.replicate device.getLedCount.toNat CRGB.black

/-- `FakeLedManager::SetGlobalColor`, lib/fake-led-manager/FakeLedManager.cpp:15-19. -/
def FakeLedManager.setGlobalColor (device : Device) (leds : List CRGB) (c : CRGB) :
    Except Fault (List CRGB) :=
  (List.range device.getLedCount.toNat).foldlM (fun (leds : List CRGB) i =>
    if i < leds.length then pure (leds.set i c) else .error .outOfBounds) leds

/-- `FakeLedManager::GetLed`, lib/fake-led-manager/FakeLedManager.cpp:21-26. -/
def FakeLedManager.getLed (plat : Platform) (device : Device) (leds : List CRGB) (i : U8) :
    Except Fault CRGB := do
  hostAssert plat (decide (i < device.getLedCount))
  vecGet leds i.toNat

/-- `FakeLedManager::ClearEffects`, lib/fake-led-manager/FakeLedManager.cpp:28-38: the effects
deleted, in order, and the registry left behind. -/
def FakeLedManager.clearEffects (r : Registry α) : Except Fault (List α × Registry α) := do
  let freed ← r.freed
  return (freed, .empty)

end Firefly
