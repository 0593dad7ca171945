import Verif.Model.StateMachine
import Verif.Model.LedManager
import Verif.Model.Battery

/-! # The hand-held controller (src/devices/controller)

Debounce and median filters and countdown timers come from libraries outside the repository;
what they report in an iteration (which buttons were just pressed, the position of the mode
switch, whether a timer is running) is an input of the iteration and ranges over all values. -/

namespace Firefly
namespace Controller

/-! ## LEDs (leds.h, leds.cc, buttons.h, buttons.cc) -/

/-- `kLedCount`, src/devices/controller/leds.h:6; `leds`, src/devices/controller/leds.cc:3. -/
abbrev Leds := Vector CRGB 42

/-- `kStatusLeft`, src/devices/controller/leds.h:10. -/
abbrev kStatusLeft : Nat := 7
/-- `kStatusRight`, src/devices/controller/leds.h:12 (`kStatusMiddle`, 8, is not used). -/
abbrev kStatusRight : Nat := 9
/-- `kLeftButtonLed`, src/devices/controller/buttons.h:7. -/
abbrev kLeftButtonLed : Nat := 41
/-- `kRightButtonLed`, src/devices/controller/buttons.h:8. -/
abbrev kRightButtonLed : Nat := 39
/-- `kBottomButtonLed`, src/devices/controller/buttons.h:9. -/
abbrev kBottomButtonLed : Nat := 40
/-- `kButtonActiveBrightness`, src/devices/controller/buttons.h:11. -/
def kActive : U8 := 64
/-- `kButtonPressedBrightness`, src/devices/controller/buttons.h:12. -/
def kPressed : U8 := 255

/-- `FastLED.clearData()`, and the initial content of the global array.
src/devices/controller/controller.cpp:147 and 565. -/
def dark : Leds := Vector.replicate 42 CRGB.black

/-- The index computed by `SetMainLed`, src/devices/controller/leds.cc:6-14. -/
def mainLedIndex (i : U8) : Nat :=
  if 11 < i ∧ i < 24 then 15 + (23 - i.toNat)
  else if 6 < i then i.toNat + 3
  else i.toNat

/-- `SetMainLed`, src/devices/controller/leds.cc:6-14 (an index beyond the array is
undefined). -/
def setMainLed (leds : Leds) (i : U8) (c : CRGB) : Except Fault Leds :=
  if h : mainLedIndex i < 42 then .ok (leds.set (mainLedIndex i) c) else .error .outOfBounds

/-- `SetLeftButtonLed`, src/devices/controller/buttons.cc:3-17. -/
def setLeftButtonLed (leds : Leds) (button : Nat) (x : U8) : Leds :=
  match button with
  | 2 => leds.set kLeftButtonLed { leds[kLeftButtonLed] with r := x }
  | 1 => leds.set kLeftButtonLed { leds[kLeftButtonLed] with g := x }
  | 3 => leds.set kLeftButtonLed { leds[kLeftButtonLed] with b := x }
  | _ => leds

/-- `SetLeftButtonLeds`, src/devices/controller/buttons.cc:19-23. -/
def setLeftButtonLeds (leds : Leds) (x y z : U8) : Leds :=
  setLeftButtonLed (setLeftButtonLed (setLeftButtonLed leds 1 x) 2 y) 3 z

/-- `SetRightButtonLed`, src/devices/controller/buttons.cc:25-39. -/
def setRightButtonLed (leds : Leds) (button : Nat) (x : U8) : Leds :=
  match button with
  | 2 => leds.set kRightButtonLed { leds[kRightButtonLed] with r := x }
  | 3 => leds.set kRightButtonLed { leds[kRightButtonLed] with g := x }
  | 1 => leds.set kRightButtonLed { leds[kRightButtonLed] with b := x }
  | _ => leds

/-- `SetRightButtonLeds`, src/devices/controller/buttons.cc:41-45. -/
def setRightButtonLeds (leds : Leds) (x y z : U8) : Leds :=
  setRightButtonLed (setRightButtonLed (setRightButtonLed leds 1 x) 2 y) 3 z

/-- `SetBottomButtonLed`, src/devices/controller/buttons.cc:47-61. -/
def setBottomButtonLed (leds : Leds) (button : Nat) (x : U8) : Leds :=
  match button with
  | 1 => leds.set kBottomButtonLed { leds[kBottomButtonLed] with r := x }
  | 2 => leds.set kBottomButtonLed { leds[kBottomButtonLed] with g := x }
  | 3 => leds.set kBottomButtonLed { leds[kBottomButtonLed] with b := x }
  | _ => leds

/-- `SetBottomButtonLeds`, src/devices/controller/buttons.cc:63-67. -/
def setBottomButtonLeds (leds : Leds) (x y z : U8) : Leds :=
  setBottomButtonLed (setBottomButtonLed (setBottomButtonLed leds 1 x) 2 y) 3 z

/-! ## The program (controller.cpp) -/

/-- `enum class ControllerMode`, src/devices/controller/controller.cpp:20-30. -/
inductive Mode where
  | effect
  | directColor
  | directPalette
  deriving DecidableEq, Repr

/-- `kRowStrip`, src/devices/controller/controller.cpp:47-48. -/
def kRowStrip : Strip := Strip.new 12 [.bright, .controller]
/-- `kPaletteStrip`, src/devices/controller/controller.cpp:50-51. -/
def kPaletteStrip : Strip := Strip.new 5 [.bright, .controller]
/-- `kSetEffectDelay`, src/devices/controller/controller.cpp:53. -/
def kSetEffectDelay : U8 := 60
/-- `kMode1Threshold`, src/devices/controller/controller.cpp:58. -/
def kMode1Threshold : U16 := 346 / 2
/-- `kMode2Threshold`, src/devices/controller/controller.cpp:59. -/
def kMode2Threshold : U16 := (346 + 678) / 2

/-- `colors`, src/devices/controller/controller.cpp:106-109. -/
def colors : List CHSV :=
  [0, 256 / 6, 256 * 2 / 6, 256 * 3 / 6, 256 * 4 / 6, 256 * 5 / 6].map fun h =>
    ⟨BitVec.ofNat 8 h, 255, 255⟩

/-- `palettes`, src/devices/controller/controller.cpp:112-114. -/
def palettes : List U8 := [8, 9, 10, 11, 12, 13]

/-- The common shape of the LED loops of the three modes: `for (i = 0; i < n; i++)
SetMainLed(first + i, colour of i)`, where computing a colour may use and change a state of type
`σ`. src/devices/controller/controller.cpp:198-206, 220-226 and 287-299. -/
def paint (colour : Nat → σ → Except Fault (CRGB × σ)) (first n : Nat) (x : Leds × σ) :
    Except Fault (Leds × σ) :=
  (List.range n).foldlM (fun x i => do
    let r ← colour i x.2
    let leds ← setMainLed x.1 (BitVec.ofNat 8 (first + i)) r.1
    return (leds, r.2)) x

/-- `Rose()` of the three buttons of a group (pressed since the previous iteration).
src/devices/controller/controller.cpp:77-99. -/
structure Trio where
  b0 : Bool
  b1 : Bool
  b2 : Bool
  deriving DecidableEq, Repr

/-- What stays fixed: FastLED, the build, and the effects registered by `led_manager`.
src/devices/controller/controller.cpp:47-68. -/
structure Env where
  F : FastLED
  plat : Platform
  registry : Registry Effect

/-- The inputs of one iteration of `loop`: the battery readings; clock and received packet of the
two radio ticks of `state_machine.Tick()`; the buttons; the mode switch; `millis()` when a press
is handled and at the `k`-th colour computation; `broadcast_led_timer.Active()`.
src/devices/controller/controller.cpp:515-585. -/
structure Input where
  battery : Battery.Input
  now₁ : U32
  rx₁ : Option Packet
  now₂ : U32
  rx₂ : Option Packet
  left : Trio
  right : Trio
  bottom : Trio
  modeSwitch : U16
  now : U32
  clock : Nat → U32
  broadcasting : Bool

/-- The global variables, src/devices/controller/controller.cpp:32-33,65-75,143-144, and the
state of FastLED's random generator. -/
structure State where
  node : Node
  mode : Mode
  prevMode : Mode
  effectIndex : U8
  paletteIndex : U8
  setEffectPacket : Packet
  controlPacket : Packet
  leds : Leds
  low : Bool
  rng : U16

/-- Number of palettes, `Effect::palettes().size()`, src/devices/controller/controller.cpp:155. -/
def numPalettes : U8 := BitVec.ofNat 8 Firefly.palettes.length

/-- The LED loops of `RunEffectMode`, src/devices/controller/controller.cpp:198-208: main LEDs
`first + 0 … first + 11` show effect `e`; the colour of main LED `k` is computed at
`inp.clock k`.  The pair is the LED buffer and the state of FastLED's random generator. -/
def showRow (env : Env) (inp : Input) (node : Node) (e : Effect) (pkt : Packet) (first : Nat) :
    Leds × U16 → Except Fault (Leds × U16) :=
  paint (fun i rng => e.getRGB env.F env.plat (BitVec.ofNat 8 i)
    (node.getNetworkMillis (inp.clock (first + i))) kRowStrip pkt rng) first 12

/-- The button handling of `RunEffectMode`, src/devices/controller/controller.cpp:154-167.  The
indices are computed as `int`s. -/
def select (env : Env) (inp : Input) (s : State) : Except Fault State :=
  let n := env.registry.getNumUniqueEffects
  if inp.left.b0 then
    if n = 0 then .error .divByZero
    else .ok { s with effectIndex := BitVec.ofNat 8 ((s.effectIndex.toNat + n.toNat - 1) % n.toNat) }
  else if inp.right.b0 then
    if n = 0 then .error .divByZero
    else .ok { s with effectIndex := BitVec.ofNat 8 ((s.effectIndex.toNat + 1) % n.toNat) }
  else if inp.left.b1 then
    .ok { s with paletteIndex :=
      BitVec.ofNat 8 ((s.paletteIndex.toNat + numPalettes.toNat - 1) % numPalettes.toNat) }
  else if inp.right.b1 then
    .ok { s with paletteIndex :=
      BitVec.ofNat 8 ((s.paletteIndex.toNat + 1) % numPalettes.toNat) }
  else if inp.bottom.b0 then do
    let node ← s.node.setEffect env.plat inp.now s.setEffectPacket
    return { s with node := node }
  else .ok s

/-- The button LEDs of `RunEffectMode`, src/devices/controller/controller.cpp:169-189. -/
def effectModeButtonLeds (inp : Input) (leds : Leds) : Leds :=
  let leds :=
    if inp.left.b0 then setLeftButtonLeds leds kPressed kActive 0
    else if inp.left.b1 then setLeftButtonLeds leds kActive kPressed 0
    else setLeftButtonLeds leds kActive kActive 0
  let leds :=
    if inp.right.b0 then setRightButtonLeds leds kPressed kActive 0
    else if inp.left.b1 then setRightButtonLeds leds kActive kPressed 0
    else setRightButtonLeds leds kActive kActive 0
  if inp.bottom.b0 then setBottomButtonLeds leds kPressed 0 0
  else setBottomButtonLeds leds kActive 0 0

/-- `RunEffectMode`, src/devices/controller/controller.cpp:153-217. -/
def runEffectMode (env : Env) (inp : Input) (s : State) : Except Fault State := do
  let s ← select env inp s
  let s := { s with leds := effectModeButtonLeds inp s.leds }
  let realEffectIndex := env.registry.uniqueEffectNumberToIndex s.effectIndex
  let currentEffect ← env.registry.getEffect env.plat realEffectIndex
  let s := { s with setEffectPacket :=
    s.setEffectPacket.writeSetEffect realEffectIndex kSetEffectDelay s.paletteIndex }
  let x ← showRow env inp s.node currentEffect s.setEffectPacket 0 (s.leds, s.rng)
  let x ← showRow env inp s.node .displayColorPalette s.setEffectPacket 12 x
  let leds := x.1.set kStatusLeft
    (if s.node.getCurrentState = .slave then ⟨255, 0, 0⟩ else ⟨0, 255, 0⟩)
  let leds := leds.set kStatusRight ⟨0, 0, if inp.broadcasting then 255 else 0⟩
  return { s with leds := leds, rng := x.2 }

/-- Which of the six side buttons was pressed: the common `if` chain of `RunColorMode`
(src/devices/controller/controller.cpp:228-248) and `RunPaletteMode` (lines 300-320). -/
def pressedIndex (inp : Input) : Option Nat :=
  if inp.left.b0 then some 0
  else if inp.left.b1 then some 2
  else if inp.left.b2 then some 4
  else if inp.right.b0 then some 1
  else if inp.right.b1 then some 3
  else if inp.right.b2 then some 5
  else none

/-- The left button LEDs of both direct modes, src/devices/controller/controller.cpp:250-262 and
322-334. -/
def directLeftLeds (inp : Input) (leds : Leds) : Leds :=
  if inp.left.b0 then setLeftButtonLeds leds kPressed kActive kActive
  else if inp.left.b1 then setLeftButtonLeds leds kActive kPressed kActive
  else if inp.left.b2 then setLeftButtonLeds leds kActive kActive kPressed
  else setLeftButtonLeds leds kActive kActive kActive

/-- The right button LEDs, src/devices/controller/controller.cpp:264-276 and 336-348; `second`
and `third` are the buttons tested for the second and third lamp (the left ones in
`RunColorMode`, lines 267 and 270). -/
def directRightLeds (inp : Input) (second third : Bool) (leds : Leds) : Leds :=
  if inp.right.b0 then setRightButtonLeds leds kPressed kActive kActive
  else if second then setRightButtonLeds leds kActive kPressed kActive
  else if third then setRightButtonLeds leds kActive kActive kPressed
  else setRightButtonLeds leds kActive kActive kActive

/-- The test `(i % 12) > 4 && (i % 12) <= 6` of both direct modes,
src/devices/controller/controller.cpp:221 and 288: the two middle columns. -/
def middle (i : Nat) : Bool := decide (4 < i % 12) && decide (i % 12 ≤ 6)

/-- The LED loop of `RunColorMode`, src/devices/controller/controller.cpp:220-226. -/
def showColors (env : Env) : Leds × Unit → Except Fault (Leds × Unit) :=
  paint (fun i _ =>
    if middle i then return (CRGB.black, ())
    else do
      let c ← vecGet colors (i / 6)
      return (env.F.hsv2rgb c, ())) 0 36

/-- `RunColorMode`, src/devices/controller/controller.cpp:219-284. -/
def runColorMode (env : Env) (inp : Input) (s : State) : Except Fault State := do
  let x ← showColors env (s.leds, ())
  let leds := directLeftLeds inp x.1
  let leds := directRightLeds inp inp.left.b1 inp.left.b2 leds
  let leds := setBottomButtonLeds leds 0 0 0
  let s := { s with leds := leds }
  match pressedIndex inp with
  | none => return s
  | some i =>
    let c ← vecGet colors i
    let p := s.controlPacket.writeControl kSetEffectDelay (env.F.hsv2rgb c)
    let node ← s.node.setEffect env.plat inp.now p
    return { s with controlPacket := p, node := node }

/-- The LED loop of `RunPaletteMode`, src/devices/controller/controller.cpp:287-298; the colour
of main LED `k` is computed at `inp.clock k`.  Besides the LED buffer, the loop changes the state
of FastLED's random generator and `set_effect_packet`. -/
def showPalettes (env : Env) (inp : Input) (node : Node) :
    Leds × (U16 × Packet) → Except Fault (Leds × (U16 × Packet)) :=
  paint (fun i x =>
    if middle i then return (CRGB.black, x)
    else do
      let p ← vecGet palettes (i / 6)
      let p := x.2.writeSetEffect 0 1 p
      let r ← Effect.displayColorPalette.getRGB env.F env.plat (BitVec.ofNat 8 (i % 6))
        (node.getNetworkMillis (inp.clock i)) kPaletteStrip p x.1
      return (r.1, r.2, p)) 0 36

/-- `RunPaletteMode`, src/devices/controller/controller.cpp:286-357. -/
def runPaletteMode (env : Env) (inp : Input) (s : State) : Except Fault State := do
  let x ← showPalettes env inp s.node (s.leds, s.rng, s.setEffectPacket)
  let leds := directLeftLeds inp x.1
  let leds := directRightLeds inp inp.right.b1 inp.right.b2 leds
  let leds := setBottomButtonLeds leds 0 0 0
  let s := { s with leds := leds, rng := x.2.1, setEffectPacket := x.2.2 }
  match pressedIndex inp with
  | none => return s
  | some i =>
    let c ← vecGet palettes i
    let p := s.setEffectPacket.writeSetEffect s.node.getEffectIndex kSetEffectDelay c
    let node ← s.node.setEffect env.plat inp.now p
    return { s with setEffectPacket := p, node := node }

/-- The mode selected by the switch, src/devices/controller/controller.cpp:557-563. -/
def modeOf (v : U16) : Mode :=
  if v < kMode1Threshold then .directColor
  else if v < kMode2Threshold then .directPalette
  else .effect

/-- `loop`, src/devices/controller/controller.cpp:515-585.  `LowBatteryMode` (lines 146-151)
clears the LEDs, lights the left status LED and puts the radio to sleep. -/
def loop (env : Env) (inp : Input) (s : State) : Except Fault State := do
  let b := Battery.step .controller s.low inp.battery
  let leds := if b.shutDown then dark.set kStatusLeft ⟨8, 0, 0⟩ else s.leds
  let s := { s with low := b.low, leds := leds }
  if !b.active then return s
  let node ← s.node.tick env.plat inp.now₁ inp.rx₁ inp.now₂ inp.rx₂
  let mode := modeOf inp.modeSwitch
  let leds := if s.prevMode ≠ mode then dark else s.leds
  let s := { s with node := node, mode := mode, prevMode := mode, leds := leds }
  match mode with
  | .effect => runEffectMode env inp s
  | .directColor => runColorMode env inp s
  | .directPalette => runPaletteMode env inp s

/-- The state after static initialisation and `setup`: `led_manager`'s constructor tells the
state machine how many effects and palettes there are (lib/led_manager/LedManager.cpp:37-38);
the packets are zero-initialised globals; `setup` may leave the battery gauge on the left status
LED (src/devices/controller/controller.cpp:487-512). -/
def init (env : Env) (t₀ : U32) (rand : Rand) (rng : U16) (gauge : CRGB) : State :=
  let z : PType × Vector U8 58 := (.heartbeat, Vector.replicate 58 0)
  { node := ((Node.init t₀ rand z z).setNumEffects env.registry.getNumEffects).setNumPalettes
      numPalettes
    mode := .effect, prevMode := .effect, effectIndex := 0, paletteIndex := 0
    setEffectPacket := ⟨0, z.1, 0, z.2⟩, controlPacket := ⟨0, z.1, 0, z.2⟩
    leds := dark.set kStatusLeft gauge, low := false, rng := rng }

/-- Runs of the controller (not from /repo): the iterations so far, newest first, each with its
input and the states before and after. The Arduino core calls `loop` for ever:
src/devices/controller/controller.cpp:515. -/
inductive Run (env : Env) (s₀ : State) : List (State × Input × State) → State → Prop
  | nil : Run env s₀ [] s₀
  | cons {h s s'} (inp : Input) : Run env s₀ h s → loop env inp s = .ok s' →
      Run env s₀ ((s, inp, s') :: h) s'

end Controller
end Firefly
