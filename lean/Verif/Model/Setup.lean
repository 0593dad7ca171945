import Verif.Model.Board

/-! # Switching on an LED board

`setup` of the node and of the fancy node, from the constructed LED manager to the first call of
`loop`.  Where the device description comes from is modelled in `Model/Flash`, the processor's
boot option in `Model/OptionBytes`.  Not modelled: pins, serial port and SPI, and the set-up of
the watchdog, which comes last (src/devices/node/node.cpp:102-139). -/

namespace Firefly
namespace Setup

/-- What `setup` reads: whether the radio can be initialised (`radio->Begin()`), whether a button
is pressed at the beginning and after that (a button is pressed if one of the pins is low;
src/devices/fancy-node/fancy-node.cc:145 and 175), and the analog reading of the battery (182). -/
structure Input where
  radioOk : Bool
  pressed : Bool
  stillPressed : Bool
  reading : U16

/-- How `setup` ends: it hangs in the fatal-error animation, an endless sequence of frames with
their durations (ms); or `loop` begins after the given frames, with the reading of the battery
`battery_at_boot` (src/devices/fancy-node/fancy-node.cc:58; 0 if not taken) and the given content
of the LED array.  src/devices/node/node.cpp:92-98, src/devices/fancy-node/fancy-node.cc:169-187. -/
inductive Outcome where
  | hangs (frame : Nat → List CRGB × Nat)
  | begins (frames : List (List CRGB × Nat)) (atBoot : U16) (leds : List CRGB)

/-- `FastLedManager::FatalErrorAnimation`, src/arduino/FastLedManager.cpp:55-62: its `k`-th frame.
`FastLED.showColor` shows one colour on all LEDs, including the on-board one. -/
def fatalFrame (device : Device) (k : Nat) : List CRGB × Nat :=
  (List.replicate (FastLedManager.newLeds device).length
    (if k % 2 = 0 then ⟨64, 0, 0⟩ else ⟨0, 0, 0⟩), 100)

/-- `setup` of the boards: src/devices/node/node.cpp:92-98 and
src/devices/fancy-node/fancy-node.cc:145 and 169-187. -/
def run (F : FastLED) (program : Board.Program) (device : Device) (inp : Input) :
    Except Fault Outcome := do
  let leds := FastLedManager.newLeds device
  if !inp.radioOk then return .hangs (fatalFrame device)
  match program with
  | .node =>
    let x ← FastLedManager.startup F device leds
    return .begins x.1 0 x.2
  | .fancyNode =>
    if inp.pressed && inp.stillPressed then
      let leds := leds.set 0 (F.hsv2rgb ⟨0, 0, 32⟩)
      let x ← FastLedManager.startup F device leds
      return .begins ((leds, 2000) :: x.1) inp.reading x.2
    else
      let x ← FastLedManager.startup F device leds
      return .begins x.1 0 x.2

end Setup
end Firefly
