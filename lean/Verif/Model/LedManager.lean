import Verif.Model.Effects

/-! # LED manager (lib/led_manager/LedManager.cpp and its subclasses) -/

namespace Firefly

/-- The three vectors of `class LedManager`, lib/led_manager/LedManager.hpp:54-63.  The registry
code treats effects as opaque pointers, so the model is generic in their type. -/
structure Registry (α : Type) where
  effects : List α
  nonRandom : List α
  uniqueIndices : List U8
  deriving Repr

namespace Registry
variable {α : Type}

/-- The state before the first `AddEffect`. lib/led_manager/LedManager.hpp:52-62. -/
def empty : Registry α := ⟨[], [], []⟩

/-- `LedManager::AddEffect`, lib/led_manager/LedManager.cpp:128-142. -/
def addEffect (plat : Platform) (r : Registry α) (e : α) (proportion : U8) :
    Except Fault (Registry α) := do
  let r :=
    if 0 < proportion then
      { r with uniqueIndices := r.uniqueIndices ++ [BitVec.ofNat 8 r.effects.length] }
    else { r with nonRandom := r.nonRandom ++ [e] }
  let r := { r with effects := r.effects ++ List.replicate proportion.toNat e }
  hostAssert plat (decide (r.effects.length + r.nonRandom.length < 256))
  return r

/-- `LedManager::GetNumEffects`, lib/led_manager/LedManager.cpp:109. -/
def getNumEffects (r : Registry α) : U8 := BitVec.ofNat 8 r.effects.length

/-- `LedManager::GetNumUniqueEffects`, lib/led_manager/LedManager.cpp:111-113. -/
def getNumUniqueEffects (r : Registry α) : U8 :=
  BitVec.ofNat 8 (r.uniqueIndices.length + r.nonRandom.length)

/-- `LedManager::GetNumNonRandomEffects`, lib/led_manager/LedManager.cpp:115-117. -/
def getNumNonRandomEffects (r : Registry α) : U8 := BitVec.ofNat 8 r.nonRandom.length

/-- `LedManager::UniqueEffectNumberToIndex`, lib/led_manager/LedManager.cpp:119-126 (the sum is
a `size_t` returned as `uint8_t`). -/
def uniqueEffectNumberToIndex (r : Registry α) (n : U8) : U8 :=
  if h : n.toNat < r.uniqueIndices.length then r.uniqueIndices[n.toNat]
  else BitVec.ofNat 8 (r.effects.length + (n.toNat - r.uniqueIndices.length))

/-- `LedManager::GetEffect`, lib/led_manager/LedManager.cpp:61-74. -/
def getEffect (plat : Platform) (r : Registry α) (index : U8) : Except Fault α := do
  let total : U8 := BitVec.ofNat 8 (r.effects.length + r.nonRandom.length)
  let index : U8 ←
    match plat with
    | .arduino => if total = 0 then .error .divByZero else pure (index % total)
    | .host => do hostAssert .host (decide (index < total)); pure index
  if index.toNat < r.effects.length then vecGet r.effects index.toNat
  else vecGet r.nonRandom (index.toNat - r.effects.length)

/-- The registered effects deleted by `LedManager::~LedManager`,
lib/led_manager/LedManager.cpp:41-49, in order (`control_effect`, deleted last, is not
registered).  `effects[effect_index]` is undefined beyond the end. -/
def freed (r : Registry α) : Except Fault (List α) := do
  let random ← r.uniqueIndices.mapM (fun i => vecGet r.effects i.toNat)
  return random ++ r.nonRandom

end Registry

/-- The random members drawn by the constructors of the effects. Constructed at
lib/led_manager/LedManager.cpp:7-39. -/
structure EffectSeeds where
  fire : U16
  firefly : U32
  rorschach : U16

/-- The `AddEffect` calls of `LedManager::LedManager`, lib/led_manager/LedManager.cpp:12-35. -/
def shippedEffects (s : EffectSeeds) : List (Effect × U8) := [
  (.colorCycle, 2), (.contrastBumps, 2), (.fire s.fire, 1), (.firefly s.firefly, 2),
  (.lightning, 1), (.pride, 1), (.rainbowBumps, 4), (.rainbow, 4), (.rorschach s.rorschach, 2),
  (.spark, 4), (.swingingLights, 4),
  (.swingingLights, 0), (.stopLight, 0), (.simpleBlink 60, 0), (.simpleBlink 30, 0),
  (.simpleBlink 12, 0), (.simpleBlink 300, 0), (.displayColorPalette, 0), (.dark, 0)]

/-- A sequence of `AddEffect` calls. lib/led_manager/LedManager.cpp:12-33. -/
def Registry.addAll (plat : Platform) (r : Registry α) (l : List (α × U8)) :
    Except Fault (Registry α) :=
  l.foldlM (fun r x => r.addEffect plat x.1 x.2) r

/-- The registry built by `LedManager::LedManager`, lib/led_manager/LedManager.cpp:7-39. -/
def shippedRegistry (plat : Platform) (s : EffectSeeds) : Except Fault (Registry Effect) :=
  Registry.empty.addAll plat (shippedEffects s)

/-- `LedManager::GetCurrentEffect`, lib/led_manager/LedManager.cpp:51-59; `pkt` is
`radio_state->GetSetEffect()`. -/
def getCurrentEffect (plat : Platform) (r : Registry Effect) (pkt : Packet) :
    Except Fault Effect :=
  if pkt.type = .setControl then .ok .control
  else do
    let i ← pkt.readEffectIndexFromSetEffect plat
    r.getEffect plat i

/-- What `RunEffect` is given: FastLED, the build, the registry, the current instruction
(`radio_state->GetSetEffect()`), and the network time at which the `k`-th LED of the frame is
computed (`radio_state->GetNetworkMillis()` is called for every LED, so the clock may advance
within a frame). lib/led_manager/LedManager.cpp:76-107. -/
structure Frame where
  F : FastLED
  plat : Platform
  registry : Registry Effect
  packet : Packet
  now : Nat → U32

/-- Colour of one LED and the generator state after computing it,
lib/led_manager/LedManager.cpp:82-100. -/
def ledColour (fr : Frame) (strip : Strip) (stripIndex : U8) (now : U32) (rng : U16) :
    Except Fault (CRGB × U16) := do
  let virtualIndex : U8 :=
    if strip.flagEnabled .reversed then strip.count - stripIndex - 1 else stripIndex
  if strip.flagEnabled .off then return (CRGB.black, rng)
  let e ← getCurrentEffect fr.plat fr.registry fr.packet
  let (rgb, rng) ← e.getRGB fr.F fr.plat virtualIndex now strip fr.packet rng
  if strip.flagEnabled .dim then return (rgb.divBy 8, rng) else return (rgb, rng)

/-- State of the loops of `RunEffect`: the LED output `σ`, `global_index`, the number of LEDs
computed so far (for the clock), and the generator state. lib/led_manager/LedManager.cpp:76-107.
-/
structure LoopState (σ : Type) where
  out : σ
  globalIndex : U8
  computed : Nat
  rng : U16

/-- Body of the inner loop, lib/led_manager/LedManager.cpp:82-103.  `setLed` is the virtual
`SetLed`. -/
def runLed (fr : Frame) (setLed : σ → U8 → CRGB → Except Fault σ) (strip : Strip)
    (st : LoopState σ) (stripIndex : Nat) : Except Fault (LoopState σ) := do
  let (rgb, rng) ← ledColour fr strip (BitVec.ofNat 8 stripIndex) (fr.now st.computed) st.rng
  let out ← setLed st.out st.globalIndex rgb
  return ⟨out, st.globalIndex + 1, st.computed + 1, rng⟩

/-- The two loops of `LedManager::RunEffect`, lib/led_manager/LedManager.cpp:76-107.  The inner
loop counts a `uint8_t` up to the `uint8_t` length of the strip, so it visits 0, 1, … once
each. -/
def runLeds (fr : Frame) (setLed : σ → U8 → CRGB → Except Fault σ) (strips : List Strip)
    (st : LoopState σ) : Except Fault (LoopState σ) :=
  strips.foldlM
    (fun st strip => (List.range strip.count.toNat).foldlM (runLed fr setLed strip) st) st

/-- `LedManager::RunEffect`, lib/led_manager/LedManager.cpp:76-107; `writeOut` is the virtual
`WriteOutLeds`. -/
def runEffect (fr : Frame) (setLed : σ → U8 → CRGB → Except Fault σ) (writeOut : σ → σ)
    (device : Device) (out : σ) (rng : U16) : Except Fault σ := do
  let st ← runLeds fr setLed device.strips ⟨out, 0, 0, rng⟩
  return writeOut st.out

/-- The virtual calls a LED manager receives during a frame. lib/led_manager/LedManager.hpp:41-48.
-/
inductive LedOp where
  | set (index : U8) (colour : CRGB)
  | show
  deriving DecidableEq, Repr

/-- A subclass that records the calls it receives. Calls of lib/led_manager/LedManager.cpp:76-107.
-/
def runEffectTrace (fr : Frame) (device : Device) (rng : U16) : Except Fault (List LedOp) :=
  runEffect fr (fun l i c => .ok (l ++ [.set i c])) (· ++ [.show]) device [] rng

/-- `FastLedManager::SetLed`, src/arduino/FastLedManager.cpp:64-71, on the heap array `leds` of
`GetLedCount() + 1` elements (src/arduino/FastLedManager.cpp:11-14). -/
def FastLedManager.setLed (device : Device) (leds : List CRGB) (i : U8) (c : CRGB) :
    Except Fault (List CRGB) := do
  let leds ←
    if device.getLedCount = 1 ∧ i = 0 then
      if 0 < leds.length then pure (leds.set 0 c) else .error .outOfBounds
    else pure leds
  if i.toNat + 1 < leds.length then pure (leds.set (i.toNat + 1) c) else .error .outOfBounds

/-- The array allocated by `FastLedManager::FastLedManager`,
src/arduino/FastLedManager.cpp:8-19 (`led_count` is a `uint16_t` here). -/
def FastLedManager.newLeds (device : Device) : List CRGB :=
  List.replicate (device.getLedCount.toNat + 1) CRGB.black

/-- `FastLED.clear()`: all LEDs of the registered array become black. Called at
src/arduino/FastLedManager.cpp:18. -/
def FastLedManager.clear (leds : List CRGB) : List CRGB := List.replicate leds.length CRGB.black

/-- `FastLedManager::PlayStartupAnimation`, src/arduino/FastLedManager.cpp:23-53: the frames
shown, each with the delay (ms) that follows, and the content of the array at the end.
`led_count` is a `uint16_t` but its value, `GetLedCount()`, is a byte, so none of the arithmetic
wraps. -/
def FastLedManager.startup (F : FastLED) (device : Device) (leds : List CRGB) :
    Except Fault (List (List CRGB × Nat) × List CRGB) := do
  let n := device.getLedCount.toNat
  if n = 0 then throw .divByZero
  let halfDelay := 500 / n
  let minDelay := n / 30 + 1
  let white : CRGB := ⟨128, 128, 128⟩
  let x ← (List.range n).foldlM (fun (x : List (List CRGB × Nat) × List CRGB) i => do
    let leds ← setLed device (clear x.2) (BitVec.ofNat 8 i) white
    return (x.1 ++ [(leds, max halfDelay minDelay)], leds)) ([], leds)
  let x ← (List.range 256).foldlM (fun (x : List (List CRGB × Nat) × List CRGB) i => do
    let leds ← setLed device x.2 (BitVec.ofNat 8 (n - 1)) (F.hsv2rgb ⟨BitVec.ofNat 8 i, 255, 128⟩)
    return (x.1 ++ [(leds, minDelay)], leds)) (x.1, clear x.2)
  let x ← (List.range n).foldlM (fun (x : List (List CRGB × Nat) × List CRGB) k => do
    let i := n - k
    let leds ← setLed device (clear x.2) (BitVec.ofNat 8 (i - 1)) white
    return (x.1 ++ [(leds, max halfDelay minDelay)], leds)) x
  return (x.1, clear x.2)

/-- `FakeLedManager::SetLed`, lib/fake-led-manager/FakeLedManager.cpp:44-49, on the array of
`GetLedCount()` elements allocated by the constructor (lines 5-11). -/
def FakeLedManager.setLed (plat : Platform) (device : Device) (leds : List CRGB) (i : U8)
    (c : CRGB) : Except Fault (List CRGB) := do
  hostAssert plat (decide (i < device.getLedCount))
  if i.toNat < leds.length then pure (leds.set i.toNat c) else .error .outOfBounds

end Firefly
