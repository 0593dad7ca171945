import Verif.Model.FastLED

/-! # Battery supervision (lib/battery/Battery.hpp and the loops of the two battery devices)

The median and moving-average filters and the countdown timer come from libraries that are not
in the repository.  Their outputs (the filtered reading, and whether the start-up timer has
expired) are inputs of the model and range over all values. -/

namespace Firefly
namespace Battery

/-- `BatteryVoltageToRawReading`, lib/battery/Battery.hpp:16-21, of `mv` thousandths of a volt:
`voltage / ((62 + 180) / 180) / 3.3 * 1024`, truncated.  The code computes in floating point;
the model computes exactly (`raw_reading_robust` in Props/Battery.lean shows that rounding
errors cannot matter for the voltages used). -/
def rawReading (mv : Nat) : U16 :=
  BitVec.ofNat 16 (mv * (180 * 10 * 1024) / ((62 + 180) * 33 * 1000))

/-- `kBatteryEmpty`, lib/battery/Battery.hpp:10, in millivolts. -/
def kEmpty : Nat := 3700
/-- `kBatteryFull`, lib/battery/Battery.hpp:11, in millivolts. -/
def kFull : Nat := 4200

/-- The devices that supervise a battery. src/devices/fancy-node/fancy-node.cc:189-222 and
src/devices/controller/controller.cpp:515-548. -/
inductive Kind where
  | controller
  | fancyNode
  deriving DecidableEq, Repr

/-- `kBatteryLowCutoff`, src/devices/controller/controller.cpp:127 and
src/devices/fancy-node/fancy-node.cc:52, in millivolts. -/
def Kind.lowCutoff : Kind → Nat
  | .controller => 3400
  | .fancyNode => 3600

/-- `kBatteryResume`, src/devices/controller/controller.cpp:131 and
src/devices/fancy-node/fancy-node.cc:56, in millivolts. -/
def Kind.resume : Kind → Nat
  | .controller => 3850
  | .fancyNode => 3850

/-- What one iteration of `loop` sees: `startup_battery_timer.Expired()` and
`battery_average_filter.GetFilteredValue()`. src/devices/fancy-node/fancy-node.cc:192 and 207-216,
src/devices/controller/controller.cpp:515-545. -/
structure Input where
  expired : Bool
  value : U16

/-- What one iteration of `loop` does about the battery: the new `battery_low`, whether
`LowBatteryMode()` (LEDs off but one, radio asleep) was called, and whether the iteration went on
to run the radio and the LEDs (`false`: `delay(100); return`).
src/devices/fancy-node/fancy-node.cc:207-222, src/devices/controller/controller.cpp:531-548. -/
structure Output where
  low : Bool
  shutDown : Bool
  active : Bool
  deriving DecidableEq, Repr

/-- The battery part of `loop`, src/devices/controller/controller.cpp:516-546 and
src/devices/fancy-node/fancy-node.cc:192-222 (filters: see the module comment). -/
def step (k : Kind) (low : Bool) (i : Input) : Output :=
  if i.expired then
    let enter : Bool := !low && decide (i.value < rawReading k.lowCutoff)
    let low := low || enter
    if low then
      if rawReading k.resume < i.value then ⟨false, enter, true⟩ else ⟨true, enter, false⟩
    else ⟨false, enter, true⟩
  else ⟨low, false, true⟩

/-- `battery_low` before iteration `n` of `loop` (0 is the first); it starts `false`
(src/devices/controller/controller.cpp:144, src/devices/fancy-node/fancy-node.cc:59). -/
def low (k : Kind) (inp : Nat → Input) : Nat → Bool
  | 0 => false
  | n + 1 => (step k (low k inp n) (inp n)).low

/-- What iteration `n` of `loop` does. `loop`, src/devices/fancy-node/fancy-node.cc:189 and
src/devices/controller/controller.cpp:515. -/
def out (k : Kind) (inp : Nat → Input) (n : Nat) : Output := step k (low k inp n) (inp n)

/-- FastLED `HUE_GREEN`. Used at src/devices/fancy-node/fancy-node.cc:237. -/
def hueGreen : Nat := 96

/-- The gauge hue computed from the reading at boot,
src/devices/controller/controller.cpp:497-508 and src/devices/fancy-node/fancy-node.cc:226-237:
`uint16_t` subtraction, `int` product and quotient, stored in a `uint8_t`. -/
def gaugeHue (reading : U16) : U8 :=
  let val : U16 := reading - rawReading kEmpty
  let range : U16 := rawReading kFull - rawReading kEmpty
  let val : U16 := if range < val then 0 else val
  BitVec.ofNat 8 (val.toNat * hueGreen / range.toNat)

/-- The colour of the on-board LED of the fancy node, src/devices/fancy-node/fancy-node.cc:224-241:
the gauge for the first 20 seconds if a reading was taken at boot, black otherwise. -/
def onboardLed (F : FastLED) (atBoot : U16) (millis : U32) : CRGB :=
  if atBoot ≠ 0 ∧ millis < 20 * 1000 then F.hsv2rgb ⟨gaugeHue atBoot, 255, 255⟩ else CRGB.black

end Battery
end Firefly
