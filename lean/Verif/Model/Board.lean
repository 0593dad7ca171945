import Verif.Model.RadioHead
import Verif.Model.StateMachine
import Verif.Model.LedManager
import Verif.Model.Battery
import Verif.Model.Boot

/-! # The LED boards (src/devices/node/node.cpp, src/devices/fancy-node/fancy-node.cc)

The whole main loop of the two boards that carry LED strips: the state machine on top of the real
radio (frames of bytes instead of packets), the LED manager, the watchdog of the node and the
battery supervision of the fancy node. -/

namespace Firefly
namespace Board

/-- What one radio tick sees: `millis()`, the frame the radio driver has ready (if any), and the
indeterminate content of the local variable `RadioPacket packet`
(src/generic/RadioStateMachine.cpp:72; its id and length are initialised to 0). -/
structure Listen where
  now : U32
  frame : Option (List U8)
  junk : PType × Vector U8 58

/-- `radio_->readPacket(packet)` as called through `NetworkManager::receive` by `RadioTick`,
src/generic/RadioStateMachine.cpp:72-77. -/
def Listen.packet (l : Listen) : Except Fault (Option Packet) :=
  Hw.readPacket l.frame ⟨0, l.junk.1, 0, l.junk.2⟩

/-- The frames handed to the radio driver for the packets the node sent since `s`.
`NetworkManager` hands them to `RadioHeadRadio::sendPacket`, src/arduino/RadioHeadRadio.cpp. -/
def frames (s s' : Node) : Except Fault (List (List U8)) :=
  (s'.sent.drop s.sent.length).mapM Hw.sendPacket

/-- `RadioStateMachine::RadioTick` on the real radio: reading the packet, handling it, and
transmitting.  Simplification: the transmissions are turned into frames at the end of the tick
(the code does not read anything back from them). src/generic/RadioStateMachine.cpp:67-112. -/
def radioTick (l : Listen) (s : Node) : Except Fault (Node × List (List U8)) := do
  let rx ← l.packet
  let s' ← s.radioTick .arduino l.now rx
  let fs ← frames s s'
  return (s', fs)

/-- `RadioStateMachine::Tick` on the real radio, src/generic/RadioStateMachine.cpp:23-36. -/
def tick (first second : Listen) (s : Node) : Except Fault (Node × List (List U8)) := do
  let a ← radioTick first s
  if a.1.tickRun then
    let b ← radioTick second a.1
    return ({ b.1 with tickRun := true }, a.2 ++ b.2)
  else return ({ a.1 with tickRun := true }, a.2)

/-- `RadioStateMachine::SetEffect` on the real radio, src/generic/RadioStateMachine.cpp:47-57. -/
def setEffect (now : U32) (p : Packet) (s : Node) : Except Fault (Node × List (List U8)) := do
  let s' ← s.setEffect .arduino now p
  let fs ← frames s s'
  return (s', fs)

/-- Which program runs on the board: src/devices/node/node.cpp or
src/devices/fancy-node/fancy-node.cc. -/
inductive Program where
  | node
  | fancyNode
  deriving DecidableEq, Repr

/-- What is fixed: FastLED, the device description, the registered effects, the program, and the
battery reading taken at boot (src/devices/fancy-node/fancy-node.cc:58; 0: none). -/
structure Env where
  F : FastLED
  device : Device
  registry : Registry Effect
  program : Program
  atBoot : U16

/-- What one iteration of `loop` sees.  `millis` is the clock at the battery gauge, `clock k` the
clock when the colour of LED `k` is computed, `rng` the state of FastLED's random generator.
src/devices/node/node.cpp:145-162, src/devices/fancy-node/fancy-node.cc:189-246. -/
structure Input where
  battery : Battery.Input
  millis : U32
  first : Listen
  second : Listen
  clock : Nat → U32
  rng : U16

/-- The state of the program; `aired` logs the frames handed to the radio driver (oldest first,
a history variable), `leds` is the LED array, `low` and `watchdog` are `battery_low`
(src/devices/fancy-node/fancy-node.cc:59) and `watchdog_counter` (src/devices/node/node.cpp:143). -/
structure State where
  node : Node
  aired : List (List U8)
  leds : List CRGB
  low : Bool
  watchdog : U8

/-- `led_manager->RunEffect()` in the state `node`, lib/led_manager/LedManager.cpp:76-107. -/
def render (env : Env) (inp : Input) (node : Node) (leds : List CRGB) :
    Except Fault (List CRGB) :=
  runEffect ⟨env.F, .arduino, env.registry, node.getSetEffect,
    fun k => node.getNetworkMillis (inp.clock k)⟩ (FastLedManager.setLed env.device) id env.device
    leds inp.rng

/-- `loop` of the node, src/devices/node/node.cpp:145-162 (the serial output is not modelled). -/
def loopNode (env : Env) (inp : Input) (s : State) : Except Fault State := do
  let a ← tick inp.first inp.second s.node
  let leds ← render env inp a.1 s.leds
  return { s with node := a.1, aired := s.aired ++ a.2, leds := leds
                  watchdog := (Watchdog.step s.watchdog).2 }

/-- `LowBatteryMode`, src/devices/fancy-node/fancy-node.cc:104-110: `SetOnboardLed` writes
`leds[0]`. -/
def lowBatteryLeds (leds : List CRGB) : Except Fault (List CRGB) :=
  let dark := FastLedManager.clear leds
  if 1 < leds.length then .ok ((dark.set 0 ⟨4, 0, 0⟩).set 1 ⟨4, 0, 0⟩) else .error .outOfBounds

/-- `loop` of the fancy node, src/devices/fancy-node/fancy-node.cc:189-246 (the blinking board
LED is not modelled). -/
def loopFancyNode (env : Env) (inp : Input) (s : State) : Except Fault State := do
  let b := Battery.step .fancyNode s.low inp.battery
  let leds ← if b.shutDown then lowBatteryLeds s.leds else pure s.leds
  let s := { s with low := b.low, leds := leds }
  if !b.active then return s
  let leds := s.leds.set 0 (Battery.onboardLed env.F env.atBoot inp.millis)
  let a ← tick inp.first inp.second s.node
  let leds ← render env inp a.1 leds
  return { s with node := a.1, aired := s.aired ++ a.2, leds := leds }

/-- `loop` of the board's program. src/devices/node/node.cpp:145-147,
src/devices/fancy-node/fancy-node.cc:189-246. -/
def loop (env : Env) (inp : Input) (s : State) : Except Fault State :=
  match env.program with
  | .node => loopNode env inp s
  | .fancyNode => loopFancyNode env inp s

/-- The state after static initialisation and `setup` (the start-up animation ends with all LEDs
off, see C84): the LED manager's constructor tells the state machine how many effects and
palettes there are (lib/led_manager/LedManager.cpp:37-38); the packets of the global state machine
are zero-initialised. -/
def init (env : Env) (t₀ : U32) (rand : Rand) : State :=
  let z : PType × Vector U8 58 := (.heartbeat, Vector.replicate 58 0)
  { node := ((Node.init t₀ rand z z).setNumEffects env.registry.getNumEffects).setNumPalettes
      (BitVec.ofNat 8 Firefly.palettes.length)
    aired := [], leds := FastLedManager.newLeds env.device, low := false, watchdog := 0 }

/-- Runs of the board (not from /repo): the iterations so far, newest first, each with its input
and the states before and after. The Arduino core calls `loop` for ever:
src/devices/node/node.cpp:145. -/
inductive Run (env : Env) (s₀ : State) : List (State × Input × State) → State → Prop
  | nil : Run env s₀ [] s₀
  | cons {h s s'} (inp : Input) : Run env s₀ h s → loop env inp s = .ok s' →
      Run env s₀ ((s, inp, s') :: h) s'

end Board
end Firefly
