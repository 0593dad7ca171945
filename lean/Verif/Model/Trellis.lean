import Verif.Model.StateMachine
import Verif.Model.LedManager

/-! # The key pad (src/devices/trellis/trellis.ino)

A board with a 4 by 4 pad of illuminated keys for choosing effects and palettes.  The sketch is
not among the environments enabled in platformio.ini (lines 133-139) and was written for an earlier
version of the libraries; the model reads its calls as calls of the present ones: the effects are
computed for the only LED of a strip of one LED without flags (`kNumLeds`,
`DeviceType::Wearable`, lines 24 and 51), and the board is an Arduino build.  The serial output is
not modelled. -/

namespace Firefly
namespace Trellis

/-- `enum class ChooserMode`, src/devices/trellis/trellis.ino:18-21. -/
inductive Mode where
  | color
  | effect
  deriving DecidableEq, Repr

/-- `kLeftKey`, src/devices/trellis/trellis.ino:26. -/
abbrev kLeftKey : Fin 16 := 12
/-- `kColorKey`, src/devices/trellis/trellis.ino:27. -/
abbrev kColorKey : Fin 16 := 13
/-- `kEffectKey`, src/devices/trellis/trellis.ino:28. -/
abbrev kEffectKey : Fin 16 := 14
/-- `kRightKey`, src/devices/trellis/trellis.ino:29. -/
abbrev kRightKey : Fin 16 := 15
/-- `kEffectDelay`, src/devices/trellis/trellis.ino:33. -/
def kEffectDelay : U8 := 60
/-- `kChooserPageSize`, src/devices/trellis/trellis.ino:64. -/
def kChooserPageSize : Nat := 12
/-- The strip the effects are computed for: `kNumLeds` LEDs,
src/devices/trellis/trellis.ino:24,51,57. -/
def kStrip : Strip := Strip.new 1 []

/-- What stays fixed: FastLED and the effects registered by `ledManager`,
src/devices/trellis/trellis.ino:39,51. -/
structure Env where
  F : FastLED
  registry : Registry Effect

/-- A key event of the pad (`keyEvent`) with `millis()` when the first and the second `SetEffect`
of its handler are called, src/devices/trellis/trellis.ino:192,263-265. -/
structure Event where
  key : Fin 16
  rising : Bool
  now : U32
  later : U32

/-- The inputs of one iteration of `loop`: clock and received packet of the two radio ticks of
`stateMachine->Tick()`, the key events reported by `trellis.read()`, and `millis()` when the colour
of key `k` is computed. src/devices/trellis/trellis.ino:67-137. -/
structure Input where
  now₁ : U32
  rx₁ : Option Packet
  now₂ : U32
  rx₂ : Option Packet
  events : List Event
  clock : Nat → U32

/-- The global variables, src/devices/trellis/trellis.ino:37-41,60-65, the colours of the 16 keys,
and the state of FastLED's random generator. -/
structure State where
  node : Node
  palettePage : U8
  effectPage : U8
  mode : Mode
  pixels : Vector CRGB 16
  rng : U16

/-- `ledManager->GetCurrentEffect()->palettes.size()`, src/devices/trellis/trellis.ino:114,193. -/
def numPalettes (env : Env) (node : Node) : Except Fault U8 := do
  let _ ← getCurrentEffect .arduino env.registry node.getSetEffect
  return BitVec.ofNat 8 palettes.length

/-- `kNumPalettePages` and `kNumEffectPages` of the key handler,
src/devices/trellis/trellis.ino:194-200.  (The variables of the same names in `runChooseEffect` and
`runChooseColor`, lines 88-91 and 115-118, are not used.) -/
def numPages (n : U8) : U8 :=
  BitVec.ofNat 8 (n.toNat / kChooserPageSize + if n.toNat % kChooserPageSize > 0 then 1 else 0)

/-- `positive_mod8`, src/devices/trellis/trellis.ino:307.  Its callers pass `page - 1` as a
`uint8_t`. -/
def positiveMod8 (n d : U8) : Except Fault U8 :=
  if d = 0 then .error .divByZero
  else .ok (BitVec.ofNat 8 ((n.toNat % d.toNat + d.toNat) % d.toNat))

/-- `(page + 1) % pages`, computed as `int`s, src/devices/trellis/trellis.ino:235,239. -/
def nextPage (page pages : U8) : Except Fault U8 :=
  if pages = 0 then .error .divByZero
  else .ok (BitVec.ofNat 8 ((page.toNat + 1) % pages.toNat))

/-- `keyIndexToEffectIndex` and `keyIndexToPaletteIndex`, src/devices/trellis/trellis.ino:139-149. -/
def itemOf (page : U8) (key : Nat) : U8 :=
  BitVec.ofNat 8 (page.toNat * kChooserPageSize + key)

/-- `rgbToTrellisColor`, src/devices/trellis/trellis.ino:162-165 (the three bytes of the result). -/
def rgbToTrellisColor (c : CRGB) (value : U8) : CRGB :=
  ⟨BitVec.ofNat 8 (c.r.toNat * value.toNat / 255), BitVec.ofNat 8 (c.g.toNat * value.toNat / 255),
   BitVec.ofNat 8 (c.b.toNat * value.toNat / 255)⟩

/-- The zero-initialised packets `fakeSetEffect` and `setEffect`,
src/devices/trellis/trellis.ino:61,191.  Their bytes beyond the third stay zero and their numbers
are not looked at, so the model writes every instruction into a fresh one. -/
def blank : Packet := ⟨0, .heartbeat, 0, Vector.replicate 58 0⟩

/-- `stateMachine->SetEffect(&setEffect); delay(1); stateMachine->SetEffect(&setEffect);`,
src/devices/trellis/trellis.ino:262-265,277-280. -/
def sendTwice (e : Event) (p : Packet) (s : State) : Except Fault State := do
  let node ← s.node.setEffect .arduino e.now p
  let node ← node.setEffect .arduino e.later p
  return { s with node := node }

/-- The branch of `trellisHandler` for the keys that choose a palette or an effect,
src/devices/trellis/trellis.ino:243-283. -/
def choose (env : Env) (numPalettes : U8) (e : Event) (s : State) : Except Fault State := do
  let s : State := { s with pixels := s.pixels.set e.key.val ⟨128, 128, 128⟩ }
  match s.mode with
  | .color =>
    let paletteIndex := itemOf s.palettePage e.key.val
    if paletteIndex < numPalettes then
      let current ← s.node.getSetEffect.readEffectIndexFromSetEffect .arduino
      let dark : Int := env.registry.getNumEffects.toNat +
        env.registry.getNumNonRandomEffects.toNat - 1
      let current := if (current.toNat : Int) = dark then current - 1 else current
      sendTwice e (blank.writeSetEffect current kEffectDelay paletteIndex) s
    else return s
  | .effect =>
    let effectIndex := itemOf s.effectPage e.key.val
    if effectIndex < env.registry.getNumUniqueEffects then
      let palette ← s.node.getSetEffect.readPaletteIndexFromSetEffect .arduino
      sendTwice e (blank.writeSetEffect (env.registry.uniqueEffectNumberToIndex effectIndex)
        kEffectDelay palette) s
    else return s

/-- The branch of `trellisHandler` for a key that was pressed,
src/devices/trellis/trellis.ino:202-284. -/
def press (env : Env) (e : Event) (s : State) : Except Fault State := do
  let numPalettes ← numPalettes env s.node
  let numEffects := env.registry.getNumUniqueEffects
  if e.key = kColorKey then
    let s : State := { s with pixels := s.pixels.set 13 ⟨128, 128, 128⟩ }
    if s.mode = .color then
      let node ← s.node.setEffect .arduino e.now (blank.writeSetEffect
        (env.registry.uniqueEffectNumberToIndex (numEffects - 1)) kEffectDelay 0)
      return { s with node := node, mode := .color }
    else return { s with mode := .color }
  else if e.key = kEffectKey then
    return { s with pixels := s.pixels.set 14 ⟨128, 128, 128⟩, mode := .effect }
  else if e.key = kLeftKey then
    let s : State := { s with pixels := s.pixels.set 12 ⟨128, 0, 0⟩ }
    match s.mode with
    | .color =>
      let page ← positiveMod8 (s.palettePage - 1) (numPages numPalettes)
      return { s with palettePage := page }
    | .effect =>
      let page ← positiveMod8 (s.effectPage - 1) (numPages numEffects)
      return { s with effectPage := page }
  else if e.key = kRightKey then
    let s : State := { s with pixels := s.pixels.set 15 ⟨0, 128, 0⟩ }
    match s.mode with
    | .color =>
      let page ← nextPage s.palettePage (numPages numPalettes)
      return { s with palettePage := page }
    | .effect =>
      let page ← nextPage s.effectPage (numPages numEffects)
      return { s with effectPage := page }
  else choose env numPalettes e s

/-- The branch of `trellisHandler` for a key that was released,
src/devices/trellis/trellis.ino:285-300. -/
def release (e : Event) (s : State) : State :=
  if e.key = kLeftKey then { s with pixels := s.pixels.set 12 ⟨8, 0, 0⟩ }
  else if e.key = kRightKey then { s with pixels := s.pixels.set 15 ⟨0, 8, 0⟩ }
  else if e.key = kEffectKey ∨ e.key = kColorKey then
    { s with pixels := s.pixels.set e.key.val CRGB.black }
  else s

/-- `trellisHandler`, src/devices/trellis/trellis.ino:192-305.  (The numbers of palettes and effects
computed first have no effect on a release but may fail.) -/
def handle (env : Env) (s : State) (e : Event) : Except Fault State := do
  if e.rising then press env e s
  else
    let _ ← numPalettes env s.node
    return release e s

/-- The loop of `runChooseColor`, src/devices/trellis/trellis.ino:123-135. -/
def showPalettes (env : Env) (numPalettes : U8) (clock : Nat → U32) (s : State) :
    Except Fault State :=
  (List.finRange 12).foldlM (fun s i => do
    let paletteIndex := itemOf s.palettePage i.val
    if numPalettes ≤ paletteIndex then return { s with pixels := s.pixels.set i.val CRGB.black }
    else
      let (rgb, rng) ← Effect.displayColorPalette.getRGB env.F .arduino 0
        (s.node.getNetworkMillis (clock i.val)) kStrip (blank.writeSetEffect 0 0 paletteIndex) s.rng
      return { s with pixels := s.pixels.set i.val (rgbToTrellisColor rgb 128), rng := rng }) s

/-- The loop of `runChooseEffect`, src/devices/trellis/trellis.ino:96-109. -/
def showEffects (env : Env) (clock : Nat → U32) (s : State) : Except Fault State :=
  (List.finRange 12).foldlM (fun s i => do
    let effectIndex := itemOf s.effectPage i.val
    if env.registry.getNumUniqueEffects ≤ effectIndex then
      return { s with pixels := s.pixels.set i.val CRGB.black }
    else
      let e ← env.registry.getEffect .arduino (env.registry.uniqueEffectNumberToIndex effectIndex)
      let (rgb, rng) ← e.getRGB env.F .arduino 0
        (s.node.getNetworkMillis (clock i.val)) kStrip s.node.getSetEffect s.rng
      return { s with pixels := s.pixels.set i.val (rgbToTrellisColor rgb 128), rng := rng }) s

/-- `runChooseColor` and `runChooseEffect`, src/devices/trellis/trellis.ino:86-137: handle the key
events, then show the twelve choices. -/
def run (env : Env) (inp : Input) (s : State) : Except Fault State :=
  match s.mode with
  | .effect => do
    let s ← inp.events.foldlM (handle env) s
    showEffects env inp.clock s
  | .color => do
    let n ← numPalettes env s.node
    let s ← inp.events.foldlM (handle env) s
    showPalettes env n inp.clock s

/-- `loop`, src/devices/trellis/trellis.ino:67-84. -/
def loop (env : Env) (inp : Input) (s : State) : Except Fault State := do
  let node ← s.node.tick .arduino inp.now₁ inp.rx₁ inp.now₂ inp.rx₂
  run env inp { s with node := node }

/-- The state after `setup` with a working pad, src/devices/trellis/trellis.ino:43-65,167-189.  The
packets of the state machine, allocated with `new`, hold arbitrary bytes `z` and `z'`; the
constructor of the LED manager tells the state machine the numbers of effects and palettes
(lib/led_manager/LedManager.cpp:37-38). -/
def init (env : Env) (t₀ : U32) (rand : Rand) (z z' : PType × Vector U8 58) (rng : U16) : State :=
  { node := ((Node.init t₀ rand z z').setNumEffects env.registry.getNumEffects).setNumPalettes
      (BitVec.ofNat 8 palettes.length)
    palettePage := 0, effectPage := 0, mode := .color
    pixels := ((Vector.replicate 16 CRGB.black).set 12 ⟨8, 0, 0⟩).set 15 ⟨0, 8, 0⟩
    rng := rng }

/-- Runs of the key pad (not from /repo): the iterations so far, newest first, each with its input
and the states before and after. The Arduino core calls `loop` for ever:
src/devices/trellis/trellis.ino:67. -/
inductive Run (env : Env) (s₀ : State) : List (State × Input × State) → State → Prop
  | nil : Run env s₀ [] s₀
  | cons {h s s'} (inp : Input) : Run env s₀ h s → loop env inp s = .ok s' →
      Run env s₀ ((s, inp, s') :: h) s'

end Trellis
end Firefly
