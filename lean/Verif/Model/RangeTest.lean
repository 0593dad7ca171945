import Verif.Model.RadioHead
import Verif.Model.FastLED

/-! # The range tester (src/devices/range_test/range_test.cc)

The program is not among the environments enabled in platformio.ini (line 133).  It sends the same
packet over and over and shows how strong the signals are that it receives.  The blinking lamp of
the board is not modelled. -/

namespace Firefly
namespace RangeTest

/-- One round of the waiting loop: `millis()` in its condition, the frame the radio driver has
ready, and `millis()` if a packet was read. src/devices/range_test/range_test.cc:41-47. -/
structure Poll where
  now : U32
  frame : Option (List U8)
  at_ : U32

/-- The inputs of one iteration of `loop`: `origMillis`, the rounds of the waiting loop (the list
goes on at least until the condition fails or a packet is read), the result of `LastRssi()` as a
16-bit pattern, and `millis()` in the last condition. src/devices/range_test/range_test.cc:37-64. -/
structure Input where
  orig : U32
  polls : List Poll
  rssi : U16
  later : U32

/-- The globals `packet` and `receivedPacketAt`, the colour all LEDs show, and (a history variable)
the frames handed to the radio driver. src/devices/range_test/range_test.cc:35-36. -/
structure State where
  packet : Packet
  receivedAt : U32
  colour : CRGB
  aired : List (List U8)

/-- `packetToSend`, src/devices/range_test/range_test.cc:21,32. -/
def packetToSend : Packet :=
  Packet.writeSetEffect ⟨0, .heartbeat, 0, Vector.replicate 58 0⟩ 0 10 4

/-- The waiting loop, src/devices/range_test/range_test.cc:41-47: the time at which a packet was
read, if any, and the packet variable. -/
def wait (orig : U32) : List Poll → Packet → Except Fault (Option U32 × Packet)
  | [], p => .ok (none, p)
  | x :: l, p =>
    if x.now - orig < 5 then do
      match ← Hw.readPacket x.frame p with
      | some q => return (some x.at_, q)
      | none => wait orig l p
    else .ok (none, p)

/-- `loop`, src/devices/range_test/range_test.cc:37-64.  `SetGlobalColor` shows the colour on all
LEDs at once. -/
def loop (F : FastLED) (inp : Input) (s : State) : Except Fault State := do
  let (got, packet) ← wait inp.orig inp.polls s.packet
  match got with
  | some t =>
    let hue : U8 := BitVec.ofInt 8 (120 + inp.rssi.toInt)
    let f ← Hw.sendPacket packetToSend
    return ⟨packet, t, F.hsv2rgb ⟨hue, 255, 255⟩, s.aired ++ [f]⟩
  | none =>
    let f ← Hw.sendPacket packetToSend
    return ⟨packet, s.receivedAt,
      if 500 < inp.later - s.receivedAt then CRGB.black else s.colour, s.aired ++ [f]⟩

/-- The state after `setup` (the constructor of the LED manager clears the LEDs,
src/arduino/FastLedManager.cpp:20): src/devices/range_test/range_test.cc:21-36. -/
def init : State := ⟨⟨0, .heartbeat, 0, Vector.replicate 58 0⟩, 0, CRGB.black, []⟩

/-- Runs of the range tester (not from /repo): the inputs of the iterations so far, newest first.
The Arduino core calls `loop` for ever: src/devices/range_test/range_test.cc:37. -/
inductive Run (F : FastLED) : List Input → State → Prop
  | nil : Run F [] init
  | cons {h s s'} (inp : Input) : Run F h s → loop F inp s = .ok s' → Run F (inp :: h) s'

end RangeTest
end Firefly
