import Verif.Model.LedManager
import Verif.Model.StateMachine

/-!
# The simulator (lib/simulator)

Not modelled: the window itself (fast-led-simulator and SDL, which are not in /repo).  In this commit
the program does not compile: `LedManager::LedManager` takes the device by reference
(lib/led_manager/LedManager.hpp:14) but lib/simulator/SimulatorLedManager.hpp:40 passes a pointer, and
lib/simulator/Simulator.cpp:12 initialises the list of strips with a pointer.  The model is of the
program with these two passed as declared.
-/

namespace Firefly
namespace Simulator

/-- `kLedFrameSize`, lib/simulator/SimulatorLedManager.hpp:31. -/
def kLedFrameSize : Nat := 20

/-- `kLedSize`, lib/simulator/SimulatorLedManager.hpp:32. -/
def kLedSize : Nat := 16

/-- Where an LED is drawn: what `SetLedPositions` stores for it,
lib/simulator/SimulatorLedManager.hpp:52-54. -/
structure Place where
  x : Nat
  y : Nat
  frameSize : Nat
  ledSize : Nat

/-- `SimulatorLedManager::SetLedPositions`, lib/simulator/SimulatorLedManager.hpp:49-56: the entry of
LED `i`.  (The products are below 2^31 for all 65535 LEDs a window can have.) -/
def place (i : Nat) : Place := ⟨(i + 1) * kLedFrameSize, kLedFrameSize / 2, kLedFrameSize, kLedSize⟩

/-- `SimulatorLedManager::GetInitialSize`, lib/simulator/SimulatorLedManager.hpp:58-61. -/
def windowSize (numLeds : Nat) : Nat × Nat := (kLedFrameSize * (numLeds + 2), kLedFrameSize * 2)

/-- `SimulatorLedManager::SetGlobalColor`, lib/simulator/SimulatorLedManager.hpp:68-73, on the array of
`numLeds` LEDs of the window. -/
def setGlobalColor (numLeds : Nat) (leds : List CRGB) (c : CRGB) : Except Fault (List CRGB) :=
  (List.range numLeds).foldlM (fun (leds : List CRGB) i =>
    if i < leds.length then pure (leds.set i c) else .error .outOfBounds) leds

/-- `SimulatorLedManager::SetLed`, lib/simulator/SimulatorLedManager.hpp:75-78. -/
def setLed (leds : List CRGB) (i : U8) (c : CRGB) : Except Fault (List CRGB) :=
  if i.toNat < leds.length then .ok (leds.set i.toNat c) else .error .outOfBounds

/-- `kNumLeds`, lib/simulator/Simulator.cpp:10. -/
def kNumLeds : U8 := 20

/-- `device`, lib/simulator/Simulator.cpp:11-12. -/
def device : Device := ⟨5000, [Strip.new kNumLeds []]⟩

/-- The objects of `main`, lib/simulator/Simulator.cpp:14-17, the clock (lib/types/Types.cpp:9-12) and
the registered effects. -/
structure State where
  node : Node
  registry : Registry Effect
  leds : List CRGB
  clock : U32

/-- `main` up to the loop, lib/simulator/Simulator.cpp:10-20: the constructor of the LED manager tells
the state machine the numbers of effects and palettes, lib/led_manager/LedManager.cpp:36-37.  `leds` is
what the array of the window holds at first. -/
def init (seeds : EffectSeeds) (rand : Rand) (junk junk' : PType × Vector U8 58) (leds : List CRGB) :
    Except Fault State := do
  let r ← shippedRegistry .host seeds
  return ⟨((Node.init 0 rand junk junk').setNumEffects r.getNumEffects).setNumPalettes
    (BitVec.ofNat 8 palettes.length), r, leds, 0⟩

/-- The body of the loop of `main`, lib/simulator/Simulator.cpp:23-28.  `ms` is the time since the
start; `rng` is the state of the generator that effects may use. -/
def body (F : FastLED) (s : State) (inp : Nat × U16) : Except Fault State := do
  let leds ← runEffect ⟨F, .host, s.registry, s.node.getSetEffect, fun _ =>
    s.node.getNetworkMillis s.clock⟩ setLed id device s.leds inp.2
  return { s with leds := leds, clock := BitVec.ofNat 32 inp.1 }

/-- `main` while the window stays open, lib/simulator/Simulator.cpp:22-29. -/
def run (F : FastLED) (s : State) (inps : List (Nat × U16)) : Except Fault State := inps.foldlM (body F) s

end Simulator
end Firefly
