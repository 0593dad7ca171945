import Verif.Model.Controller

/-! # Switching on the controller and the DMX bridge -/

namespace Firefly
namespace Controller

/-- What `setup` of the controller meets: whether the radio answers; whether the first left button is
held; and the reading of the battery two seconds later.  The second tap of the reset button (lines
403-436) and the boot option (lines 443-460) are modelled elsewhere (Verif/Model/Boot.lean,
Verif/Model/OptionBytes.lean).  src/devices/controller/controller.cpp:473-496. -/
structure SetupInput where
  radioOk : Bool
  held : Bool
  reading : U16

/-- How `setup` ends: it hangs, the LEDs a function of `millis()`; or `loop` begins after the given
frames with their durations (ms) and with the given content of the LED array.
src/devices/controller/controller.cpp:473-513. -/
inductive SetupOutcome where
  | hangs (frame : U32 → Leds)
  | begins (frames : List (Leds × Nat)) (leds : Leds)

/-- `setup` of the controller from the initialisation of the radio on,
src/devices/controller/controller.cpp:467-513.  `CHSV` is converted on assignment to a `CRGB`. -/
def setup (F : FastLED) (inp : SetupInput) : SetupOutcome :=
  if !inp.radioOk then
    .hangs fun millis => dark.set 0 ⟨if millis / 200 % 2 = 0 then 255 else 0, 0, 0⟩
  else if inp.held then
    let white := dark.set kStatusLeft (F.hsv2rgb ⟨0, 0, 32⟩)
    let gauge := white.set kStatusLeft (F.hsv2rgb ⟨Battery.gaugeHue inp.reading, 255, 255⟩)
    .begins [(white, 2000), (gauge, 5000)] gauge
  else .begins [] dark

end Controller

namespace Dmx

/-- The LED of the DMX bridge in the `k`-th round of the loop in which `setup` hangs if the radio does
not answer; each round takes 100 ms.  src/devices/dmx/dmx.cpp:26-33. -/
def failureLed : Nat → Bool
  | 0 => false
  | k + 1 => !failureLed k

end Dmx
end Firefly
