import Verif.Model.Color
import Verif.Model.Math
import Verif.Model.Device

/-!
# Effects (lib/effect)

Each `GetRGB` is modelled by a function that returns the colour expression of the `return`
statement *before* the implicit conversion of a `CHSV` to `CRGB` (`Colour`), so that
properties can speak about hue, saturation and value.  `Effect.getRGB` applies the conversion.

Expressions containing `time_ms` are `uint32_t`; the others are `int` expressions that cannot
overflow and are computed in `Nat` or `Int`.  A conversion to a narrower parameter or variable
is `setWidth`, `BitVec.ofNat` or `BitVec.ofInt`.
-/

namespace Firefly

/-- The value of a `return` expression: a `CHSV` (converted implicitly) or a `CRGB`. The interface
is `Effect::GetRGB`, lib/effect/Effect.hpp:16-18. -/
inductive Colour where
  | hsv (c : CHSV)
  | rgb (c : CRGB)
  deriving DecidableEq, Repr

/-- The implicit conversion at the `return`. The interface is `Effect::GetRGB`,
lib/effect/Effect.hpp:16-18. -/
def Colour.toRGB (F : FastLED) : Colour → CRGB
  | .hsv c => F.hsv2rgb c
  | .rgb c => c

/-- `return {0, 0, 0}` / `CRGB(0, 0, 0)`. E.g. lib/effect/DarkEffect.cpp. -/
def Colour.black : Colour := .rgb CRGB.black

/-- `v[i]` of a `std::vector`: undefined outside its bounds. E.g. lib/color/ColorPalette.cpp. -/
def vecGet (v : List α) (i : Nat) : Except Fault α :=
  match v[i]? with
  | some x => .ok x
  | none => .error .outOfBounds

/-- Integer division: undefined for a zero divisor. E.g. lib/math/Math.cpp. -/
def divNat (a b : Nat) : Except Fault Nat :=
  if b = 0 then .error .divByZero else .ok (a / b)

/-- `Effect::palettes`, lib/effect/Effect.cpp:18-67 (FastLED's `HUE_RED` … `HUE_PINK` are 0,
32, …, 224). -/
def palettes : List Palette := [
  [⟨0, 255, 255⟩], [⟨32, 255, 255⟩], [⟨64, 255, 255⟩], [⟨96, 255, 255⟩],
  [⟨128, 255, 255⟩], [⟨160, 255, 255⟩], [⟨192, 255, 255⟩], [⟨224, 255, 255⟩],
  [⟨0, 255, 255⟩, ⟨96, 255, 255⟩, ⟨160, 255, 255⟩],
  [⟨0, 255, 255⟩, ⟨192, 255, 255⟩],
  [⟨96, 255, 255⟩, ⟨160, 255, 255⟩],
  [⟨64, 255, 255⟩, ⟨128, 255, 255⟩],
  [⟨192, 255, 255⟩, ⟨32, 255, 255⟩],
  [⟨33, 241, 249⟩, ⟨247, 188, 255⟩, ⟨201, 225, 160⟩, ⟨153, 251, 150⟩],
  [⟨128, 0, 255⟩, ⟨160, 255, 255⟩],
  [⟨0, 255, 255⟩, ⟨0, 0, 255⟩],
  [⟨128, 255, 255⟩, ⟨128, 0, 255⟩],
  [⟨0, 255, 255⟩, ⟨32, 255, 255⟩, ⟨64, 255, 255⟩],
  [⟨0, 127, 192⟩, ⟨96, 127, 192⟩, ⟨160, 127, 192⟩],
  [⟨132, 255, 255⟩, ⟨192, 255, 255⟩, ⟨0, 0, 200⟩],
  [⟨192, 255, 255⟩, ⟨64, 255, 255⟩, ⟨192, 255, 255⟩],
  [⟨0, 255, 255⟩, ⟨96, 255, 255⟩, ⟨160, 255, 255⟩,
    ⟨0, 255, 255⟩, ⟨96, 255, 255⟩, ⟨160, 255, 255⟩]]

/-- `palettes()[setEffectPacket->readPaletteIndexFromSetEffect()]`, e.g.
lib/effect/RainbowEffect.cpp:10-12. -/
def paletteOf (plat : Platform) (pkt : Packet) : Except Fault Palette := do
  let i ← pkt.readPaletteIndexFromSetEffect plat
  vecGet palettes i.toNat

/-- `Effect::GetThresholdSin`, lib/effect/Effect.cpp:5-13.  `/` on `int` truncates. -/
def getThresholdSin (F : FastLED) (x : U16) (threshold : U8) : U8 :=
  let shifted := (F.sin16 x).toInt.tdiv 128
  if shifted < threshold.toNat then 0
  else BitVec.ofInt 8 (((shifted - threshold.toNat) * 256).tdiv (256 - threshold.toNat))

/-- The common prologue `if (strip.FlagEnabled(Mirrored)) MirrorIndex(&led_index, &led_count)`,
e.g. lib/effect/SparkEffect.cpp:15-18. -/
def mirrored (strip : Strip) (led : U8) : Except Fault (U8 × U8) :=
  if strip.flagEnabled .mirrored then mirrorIndex led strip.count else .ok (led, strip.count)

namespace Effects
variable (F : FastLED) (plat : Platform)

/-- `ColorCycleEffect::GetRGB`, lib/effect/ColorCycleEffect.cpp:7-32. -/
def colorCycle (time : U32) (strip : Strip) (pkt : Packet) : Except Fault Colour := do
  let palette ← paletteOf plat pkt
  if palette.size < 2 then
    let color ← palette.getColor 0
    if strip.flagEnabled .bright then
      return .hsv { color with v := F.cubicwave8 ((time / 16).setWidth 8) }
    else
      return .hsv { color with
        v := BitVec.ofNat 8 ((F.cubicwave8 ((time / 16).setWidth 8)).toNat * 2 / 3) }
  else
    let color ← palette.getGradient F (((time / 16) <<< 8).setWidth 16)
    if ¬ strip.flagEnabled .bright then return .hsv { color with v := color.v / 2 }
    else return .hsv color

/-- `ContrastBumpsEffect::GetRGB`, lib/effect/ContrastBumpsEffect.cpp:7-37. -/
def contrastBumps (led : U8) (time : U32) (strip : Strip) (pkt : Packet) :
    Except Fault Colour := do
  let palette ← paletteOf plat pkt
  let (led, count) ← mirrored strip led
  let offset : U8 ←
    if strip.flagEnabled .circular then
      do let q ← divNat (led.toNat * 255) count.toNat; pure (BitVec.ofNat 8 q)
    else pure (led * 24)
  let sin := getThresholdSin F (((-(time / 16 + offset.setWidth 32)) <<< 8).setWidth 16) 0
  let colorIndex : U16 := (time * 16).setWidth 16
  if sin = 0 then
    let color ← palette.getGradient F colorIndex
    return .hsv { color with v := 64 }
  else
    let color ← palette.getGradient F (colorIndex + 0x4000)
    return .hsv { color with v := F.qadd8 (sin / 2) 96 }

/-- `ControlEffect::GetRGB`, lib/effect/ControlEffect.cpp:5-13. -/
def control (pkt : Packet) : Except Fault Colour := do
  let c ← pkt.readRgbFromSetControl plat
  return .rgb c

/-- `DarkEffect::GetRGB`, lib/effect/DarkEffect.cpp:5-13. -/
def dark : Except Fault Colour := .ok Colour.black

/-- `DisplayColorPaletteEffect::GetRGB`, lib/effect/DisplayColorPaletteEffect.cpp:5-22. -/
def displayColorPalette (led : U8) (time : U32) (strip : Strip) (pkt : Packet) :
    Except Fault Colour := do
  let palette ← paletteOf plat pkt
  let color ←
    if strip.count < palette.size ∧ palette.size ≤ 4 then
      palette.getGradient F ((time / 2 * 23).setWidth 16)
    else do
      let q ← divNat (led.toNat * 65536) strip.count.toNat
      palette.getGradient F (BitVec.ofNat 16 q)
  if ¬ strip.flagEnabled .bright then return .hsv { color with v := color.v / 2 }
  else return .hsv color

/-- The palette of the fire effect, lib/effect/FireEffect.hpp:18-19. -/
def firePalette : Palette := [⟨0, 255, 8⟩, ⟨23, 249, 45⟩, ⟨30, 246, 113⟩, ⟨35, 200, 192⟩]

/-- `FireEffect::GetRGB`, lib/effect/FireEffect.cpp:13-44; `phase` is the member `offset`, drawn
once by the constructor (lines 6-11).  The state of FastLED's random generator is threaded
through because the noise reseeds it.  C++ does not lay down which of the two noises of a sum is
computed first; the order taken here affects the state of the generator afterwards, not the colour. -/
def fire (phase : U16) (led : U8) (time : U32) (strip : Strip) (rng : U16) :
    Except Fault (Colour × U16) := do
  let side : U32 :=
    if strip.flagEnabled .mirrored ∧ strip.count.toNat / 2 < led.toNat then 6789 else 0
  let (led, count) ← mirrored strip led
  let time := time + phase.setWidth 32
  let (noise, rng) : U8 × U16 ←
    if strip.flagEnabled .circular then do
      let (angle, radius) ← getPosOnCircle count led
      let (n1, rng) := perlinNoisePolar F (time / 8) side angle radius rng
      let (n2, rng) := perlinNoisePolar F (time / 2 + 1234567) 0 angle radius rng
      pure (BitVec.ofNat 8 (n1.toNat / 4 * 3 + n2.toNat / 4 * 1), rng)
    else
      let (n1, rng) := perlinNoise F (BitVec.ofNat 32 (led.toNat * 20)) (time / 8) rng
      let (n2, rng) := perlinNoise F (BitVec.ofNat 32 (led.toNat * 10 + 1234))
        (time / 2 + 1234567) rng
      pure (BitVec.ofNat 8 (n1.toNat / 4 * 3 + n2.toNat / 4 * 1), rng)
  let color ← firePalette.getGradient F (noise.setWidth 16 <<< 8) false
  return (.hsv color, rng)

/-- `kPeriodMs`, lib/effect/FireflyEffect.hpp:19. -/
def kPeriodMs : U32 := 20000
/-- `kSinMultiplier`, lib/effect/FireflyEffect.hpp:22. -/
def kSinMultiplier : U32 := 64
/-- `kBlinkPeriod`, lib/effect/FireflyEffect.hpp:23. -/
def kBlinkPeriod : U32 := 1024

/-- The adjusted time of the firefly effect, lib/effect/FireflyEffect.cpp:25-48.  (`phase` is
an `int8_t` with values 0..2.) -/
def fireflyTime (offset time : U32) : U32 :=
  let phase := (time / kPeriodMs) % 3
  let periodStart := (time / kPeriodMs) * kPeriodMs
  let elapsed := time - periodStart
  let remaining := kPeriodMs - elapsed
  if phase = 0 then
    if offset < kBlinkPeriod / 4 then time - (offset * remaining) / kPeriodMs
    else time + (offset * remaining) / kPeriodMs
  else if phase = 1 then time
  else
    if offset < kBlinkPeriod / 4 then time - (offset * elapsed) / kPeriodMs
    else time + (offset * elapsed) / kPeriodMs

/-- `FireflyEffect::GetRGB`, lib/effect/FireflyEffect.cpp:12-59; `own` is the member `offset_`,
drawn once by the constructor (lines 5-10).  A shift by 32 or more is undefined. -/
def firefly (own : U32) (led : U8) (time : U32) (strip : Strip) (pkt : Packet) :
    Except Fault Colour := do
  if strip.flagEnabled .controller ∧ led % 2 = 1 then return Colour.black
  let offset : U32 ←
    if strip.flagEnabled .controller then
      if 32 ≤ led.toNat then .error .badShift
      else pure (((kBlinkPeriod + 1234) <<< led.toNat) % (kBlinkPeriod / 2))
    else pure own
  let adjusted := fireflyTime offset time
  let curve := (F.sin16 ((adjusted * kSinMultiplier).setWidth 16)).toInt
  let curve := if curve < 0 then 0 else curve
  let palette ← paletteOf plat pkt
  let color ← palette.getGradient F (((time / kBlinkPeriod) <<< 8).setWidth 16)
  return .hsv { color with v := BitVec.ofInt 8 (curve.tdiv 256) }

/-- `LightningEffect::GetRGB`, lib/effect/LightningEffect.cpp:7-24. -/
def lightning (led : U8) (time : U32) (pkt : Packet) (rng : U16) :
    Except Fault (Colour × U16) := do
  let palette ← paletteOf plat pkt
  let (noise, rng) := perlinNoise F (BitVec.ofNat 32 (led.toNat * 64)) (time / 6) rng
  let pos : U32 := BitVec.ofInt 32 (((noise.toNat : Int) - 160) * 512) + time
  let color ← palette.getGradient F (pos.setWidth 16)
  return (.hsv { color with v := if 160 < noise then noise else 0 }, rng)

/-- `PoliceEffect::GetRGB`, lib/effect/PoliceEffect.cpp:7-97 with the constants of
lib/effect/PoliceEffect.hpp:18-24.  (Not registered any more, lib/led_manager/LedManager.cpp:25.) -/
def police (led : U8) (time : U32) (strip : Strip) : Except Fault Colour := do
  let redCycle : Bool := (time / 15) &&& 0b100000 == 0
  let blueCycle : Bool := (time / 14) &&& 0b100000 == 0
  let redFlash : Bool := (time / 15) &&& 0b100 == 0
  let blueFlash : Bool := (time / 14) &&& 0b100 == 0
  let red : Colour := .rgb ⟨255, 0, 0⟩
  let blue : Colour := .rgb ⟨0, 0, 255⟩
  let off : Colour := Colour.black
  if strip.flagEnabled .controller then
    let phase := (time / 100) % 10
    if phase < 4 then
      if led.toNat < strip.count.toNat / 3 then return if phase % 2 = 0 then red else off
    else
      if strip.count.toNat * 2 / 3 ≤ led.toNat then return if phase % 2 = 0 then blue else off
    return off
  if strip.flagEnabled .tiny ∧ strip.flagEnabled .mirrored then
    if strip.count.toNat / 2 ≤ led.toNat then
      return if redCycle ∧ redFlash then red else off
    else
      return if ¬ redCycle ∧ blueFlash then blue else off
  let (led, count) ← mirrored strip led
  if strip.flagEnabled .tiny then
    return if redFlash then (if redCycle then red else blue) else off
  let l : Int := led.toNat
  let c : Int := count.toNat
  if redFlash then
    if l < 14 / 2 then return if redCycle then red else off
    else if l < 14 then return if redCycle then off else red
  if blueFlash then
    if c - 14 / 2 < l then return if blueCycle then blue else off
    else if c - 14 < l then return if blueCycle then off else blue
  return off

/-- The palette of the pride effect, lib/effect/PrideEffect.hpp:19-26 (integer arithmetic). -/
def pridePalette : Palette := [⟨0, 255, 255⟩, ⟨24, 255, 252⟩, ⟨38, 255, 255⟩, ⟨83, 237, 160⟩,
  ⟨154, 247, 175⟩, ⟨206, 201, 219⟩]

/-- `PrideEffect::GetRGB`, lib/effect/PrideEffect.cpp:12-37. -/
def pride (led : U8) (time : U32) (strip : Strip) : Except Fault Colour := do
  let stripeWidth : U16 := BitVec.ofNat 16 (strip.count.toNat * 8)
  let fadeWidth : U16 := stripeWidth / 8
  let tiny := strip.flagEnabled .tiny
  let led : U8 := if tiny then 0 else led
  let time : U32 := if tiny then time * 2 else time
  let fadeWidth : U16 := if tiny then fadeWidth / 2 else fadeWidth
  let size := pridePalette.size
  let total : U32 := BitVec.ofNat 32 (stripeWidth.toNat * size.toNat)
  if total = 0 then .error .divByZero
  else
    let vIndex : U16 :=
      ((BitVec.ofNat 32 (led.toNat * 8 * size.toNat) + time / 8) % total).setWidth 16
    let colorIndex : U8 := BitVec.ofNat 8 (vIndex.toNat / stripeWidth.toNat % size.toNat)
    let colorAmount : U16 := vIndex % stripeWidth
    if colorAmount < fadeWidth then
      let a ← pridePalette.getColor (colorIndex - 1)
      let b ← pridePalette.getColor colorIndex
      return .hsv (F.blend a b (BitVec.ofNat 8 (colorAmount.toNat * 255 / fadeWidth.toNat)))
    else
      let b ← pridePalette.getColor colorIndex
      return .hsv b

/-- `RainbowBumpsEffect::GetRGB`, lib/effect/RainbowBumpsEffect.cpp:7-29. -/
def rainbowBumps (led : U8) (time : U32) (strip : Strip) (pkt : Packet) :
    Except Fault Colour := do
  let palette ← paletteOf plat pkt
  let (led, count) ← mirrored strip led
  let offset : U8 ←
    if strip.flagEnabled .circular then
      do let q ← divNat (led.toNat * 255) count.toNat; pure (BitVec.ofNat 8 q)
    else pure (led * 8)
  let color ← palette.getGradient F (((time / 10 + offset.setWidth 32) <<< 8).setWidth 16)
  return .hsv { color with
    v := getThresholdSin F
      (((-(time / 16 - BitVec.ofNat 32 (offset.toNat * 3))) <<< 8).setWidth 16) 0 }

/-- `RainbowEffect::GetRGB`, lib/effect/RainbowEffect.cpp:5-40. -/
def rainbow (led : U8) (time : U32) (strip : Strip) (pkt : Packet) : Except Fault Colour := do
  let v : U8 := if strip.flagEnabled .bright then 255 else 128
  let palette ← paletteOf plat pkt
  if palette.size < 2 then
    if strip.flagEnabled .tiny then
      let color ← palette.getGradient F
        ((F.cubicwave8 ((time / 16).setWidth 8)).setWidth 16 <<< 8)
      return .hsv color
    else
      let color ← palette.getColor 0
      let w := F.cubicwave8 ((time / 16 + BitVec.ofNat 32 (led.toNat * 8)).setWidth 8)
      if strip.flagEnabled .bright then return .hsv { color with v := w }
      else return .hsv { color with v := BitVec.ofNat 8 (w.toNat * 2 / 3) }
  else
    if strip.flagEnabled .tiny then
      let color ← palette.getGradient F (((time / 16) <<< 8).setWidth 16)
      return .hsv { color with v := v }
    else
      let color ← palette.getGradient F
        (((time / 16 + BitVec.ofNat 32 (led.toNat * 8)) <<< 8).setWidth 16)
      return .hsv { color with v := v }

/-- `RorschachEffect::GetRGB`, lib/effect/RorschachEffect.cpp:13-45; `phase` is the member
`offset`, drawn once by the constructor (lines 6-11).  The noise is a `uint8_t` stored in a
`uint16_t`, so the test against 255 in lines 31-33 never succeeds. -/
def rorschach (phase : U16) (led : U8) (time : U32) (strip : Strip) (pkt : Packet)
    (rng : U16) : Except Fault (Colour × U16) := do
  let palette ← paletteOf plat pkt
  let ledPos : U16 := BitVec.ofInt 16
    (-(((led.toNat : Int) - (strip.count.toNat / 2 : Nat)).natAbs : Int))
  let time := time + phase.setWidth 32
  let (noise, rng) := perlinNoise F (BitVec.ofNat 32 (ledPos.toNat * 32) + (time >>> 3))
    ((time >>> 3) + BitVec.ofNat 32 (ledPos.toNat * 4)) rng
  if palette.size < 2 then
    let color ← palette.getColor 0
    return (.hsv { color with v := noise }, rng)
  else
    let color ← palette.getGradient F (noise.setWidth 16 <<< 8) false
    if ¬ strip.flagEnabled .bright then return (.hsv { color with v := color.v / 2 }, rng)
    else return (.hsv color, rng)

/-- `SimpleBlinkEffect::GetRGB`, lib/effect/SimpleBlinkEffect.cpp:5-21. -/
def simpleBlink (speed : U16) (time : U32) (strip : Strip) (pkt : Packet) :
    Except Fault Colour := do
  if speed = 0 then .error .divByZero
  else
    let chunk := (time / speed.setWidth 32) % 3
    if chunk = 0 then
      let palette ← paletteOf plat pkt
      let color ← palette.getGradient F ((time / 4 * 23).setWidth 16)
      if ¬ strip.flagEnabled .bright then return .hsv { color with v := color.v / 2 }
      else return .hsv color
    else return Colour.black

/-- `brightnesses`, lib/effect/SparkEffect.hpp:19. -/
def brightnesses : List U8 := [255, 255, 128, 96, 48, 32, 24, 16]

/-- Relative position and direction of the spark, lib/effect/SparkEffect.cpp:20-33, as
`int16_t` (all values fit).  The arithmetic on `time_ms` is modulo 2^32. -/
def sparkPos (led count : U8) (time : U32) (strip : Strip) : Except Fault (Int × Bool) :=
  if strip.flagEnabled .circular then
    if count = 0 then .error .divByZero
    else
      let c : U32 := count.setWidth 32
      .ok (((time * c / 3000 + led.setWidth 32) % c).toNat, false)
  else
    let len : Nat := count.toNat + brightnesses.length
    let pos : Nat := (time * BitVec.ofNat 32 len / 3000 % BitVec.ofNat 32 (len * 2)).toNat
    if len < pos then .ok (((len - (pos - len) : Nat) : Int) - led.toNat, true)
    else .ok ((pos : Int) - led.toNat, false)

/-- `SparkEffect::GetRGB`, lib/effect/SparkEffect.cpp:7-53. -/
def spark (led : U8) (time : U32) (strip : Strip) (pkt : Packet) : Except Fault Colour := do
  let palette ← paletteOf plat pkt
  let (led, count) ← mirrored strip led
  let (rel, reverse) ← sparkPos led count time strip
  let hsv ← palette.getGradient F
    (((time / 24 + BitVec.ofInt 32 (rel * 14)) <<< 8).setWidth 16)
  let pulse : Nat := brightnesses.length
  if rel < 0 then return .hsv { hsv with v := 0 }
  else if rel < count.toNat + pulse then
    if rel < pulse then
      let b ← vecGet brightnesses
        (if reverse then pulse - rel.toNat - 1 else rel.toNat)
      return .hsv { hsv with v := b }
    else return .hsv { hsv with v := 0 }
  else return .hsv { hsv with v := 0 }

/-- The colours of the stop light, lib/effect/StopLightEffect.hpp:18-23. -/
def slRed : CHSV := ⟨0, 255, 255⟩
/-- See `slRed`. lib/effect/StopLightEffect.hpp:19. -/
def slDimRed : CHSV := ⟨0, 255, 32⟩
/-- See `slRed`. lib/effect/StopLightEffect.hpp:20. -/
def slAmber : CHSV := ⟨32, 255, 255⟩
/-- See `slRed`. lib/effect/StopLightEffect.hpp:21. -/
def slDimAmber : CHSV := ⟨32, 255, 32⟩
/-- See `slRed`. lib/effect/StopLightEffect.hpp:22. -/
def slGreen : CHSV := ⟨102, 255, 255⟩
/-- See `slRed`. lib/effect/StopLightEffect.hpp:23. -/
def slDimGreen : CHSV := ⟨102, 255, 32⟩

/-- `StopLightEffect::GetRGB`, lib/effect/StopLightEffect.cpp:5-65.  `amber / 2` (line 32)
converts to `CRGB` first. -/
def stopLight (led : U8) (time : U32) (strip : Strip) : Except Fault Colour :=
  let ledPos : U16 :=
    BitVec.ofNat 16 (((strip.count.toNat / 2 : Nat) - (led.toNat : Int)).natAbs * 256)
  let time := time >>> 11
  let isRed : Bool := time &&& 0b100 == 0 && decide (0 < time &&& 0b11)
  let isAmber : Bool := time &&& 0b100 == 0 && time &&& 0b11 == 0
  let isGreen : Bool := time &&& 0b100 != 0
  if strip.flagEnabled .tiny then
    if isRed then .ok (.hsv slRed)
    else if isAmber then .ok (.hsv slAmber)
    else .ok (.hsv slGreen)
  else if strip.flagEnabled .controller then
    let segment := strip.count.toNat / 5
    if led.toNat ≤ segment then .ok (.hsv slRed)
    else if segment * 2 < led.toNat ∧ led.toNat ≤ segment * 3 then
      .ok (.rgb ((F.hsv2rgb slAmber).divBy 2))
    else if segment * 4 < led.toNat then .ok (.hsv slGreen)
    else .ok Colour.black
  else
    let segment := strip.count.toNat * 32
    let pos := ledPos.toNat
    if pos < segment then .ok Colour.black
    else if segment < pos ∧ pos < segment * 2 then
      .ok (.hsv (if isRed then slRed else slDimRed))
    else if segment * 2 < pos ∧ pos < segment * 3 then
      .ok (.hsv (if isAmber then slAmber else slDimAmber))
    else if segment * 3 < pos then
      .ok (.hsv (if isGreen then slGreen else slDimGreen))
    else .ok Colour.black

/-- `SPREAD`, lib/effect/SwingingLights.cpp:6: `MAX_UINT16 * 0.2` truncated. -/
def kSpread : Nat := 13107

/-- `addInPlace`, lib/effect/SwingingLights.cpp:11-17. -/
def addInPlace (value : CHSV) (result : CRGB) : CRGB :=
  let color := F.hsv2rgb value
  ⟨F.qadd8 result.r color.r, F.qadd8 result.g color.g, F.qadd8 result.b color.b⟩

/-- One iteration of the loop of `SwingingLights::GetRGB`, lib/effect/SwingingLights.cpp:44-55. -/
def swingOne (palette : Palette) (angle ledPos : U16) (color : CRGB) (i : Nat) :
    Except Fault CRGB := do
  let lightOffset : U16 := BitVec.ofNat 16 (i * 65535 / palette.size.toNat)
  let lightPos : U16 := F.sin16 (lightOffset + angle) + 32767
  let dist : Int := (((lightPos.toNat : Int) - ledPos.toNat).natAbs : Int) - kSpread
  if dist < 0 then
    let modifier ← palette.getColor (BitVec.ofNat 8 i)
    return addInPlace F { modifier with
      v := BitVec.ofInt 8 ((-dist * modifier.v.toNat).tdiv kSpread) } color
  else return color

/-- `SwingingLights::GetRGB`, lib/effect/SwingingLights.cpp:19-58, `kPeriod` = 5000
(lib/effect/SwingingLights.hpp:18). -/
def swingingLights (led : U8) (time : U32) (strip : Strip) (pkt : Packet) :
    Except Fault Colour := do
  let (led, count) : U8 × U8 ←
    if strip.flagEnabled .tiny ∧ ¬ strip.flagEnabled .circular then pure (0, 50)
    else mirrored strip led
  let angle : U16 := BitVec.ofNat 16 (time.toNat % 5000 * 65535 / 5000)
  let q ← divNat (led.toNat * 65535) count.toNat
  let ledPos : U16 := BitVec.ofNat 16 q
  let palette ← paletteOf plat pkt
  let color ← (List.range palette.size.toNat).foldlM (swingOne F palette angle ledPos)
    CRGB.black
  return .rgb color

end Effects

/-- The effect objects that exist, lib/effect/Effects.hpp; the parameters are the members set
at construction. -/
inductive Effect where
  | colorCycle
  | contrastBumps
  | control
  | dark
  | displayColorPalette
  | fire (offset : U16)
  | firefly (offset : U32)
  | lightning
  | police
  | pride
  | rainbowBumps
  | rainbow
  | rorschach (offset : U16)
  | simpleBlink (speed : U16)
  | spark
  | stopLight
  | swingingLights
  deriving DecidableEq, Repr

namespace Effect

/-- The virtual call `GetRGB`, lib/effect/Effect.hpp:16-18, without the final conversion to
`CRGB`; `rng` is the state of FastLED's random generator before and after. -/
def getColour (F : FastLED) (plat : Platform) (e : Effect) (led : U8) (time : U32)
    (strip : Strip) (pkt : Packet) (rng : U16) : Except Fault (Colour × U16) :=
  let pure' (r : Except Fault Colour) : Except Fault (Colour × U16) := r.map (·, rng)
  match e with
  | .colorCycle => pure' (Effects.colorCycle F plat time strip pkt)
  | .contrastBumps => pure' (Effects.contrastBumps F plat led time strip pkt)
  | .control => pure' (Effects.control plat pkt)
  | .dark => pure' Effects.dark
  | .displayColorPalette => pure' (Effects.displayColorPalette F plat led time strip pkt)
  | .fire o => Effects.fire F o led time strip rng
  | .firefly o => pure' (Effects.firefly F plat o led time strip pkt)
  | .lightning => Effects.lightning F plat led time pkt rng
  | .police => pure' (Effects.police led time strip)
  | .pride => pure' (Effects.pride F led time strip)
  | .rainbowBumps => pure' (Effects.rainbowBumps F plat led time strip pkt)
  | .rainbow => pure' (Effects.rainbow F plat led time strip pkt)
  | .rorschach o => Effects.rorschach F plat o led time strip pkt rng
  | .simpleBlink s => pure' (Effects.simpleBlink F plat s time strip pkt)
  | .spark => pure' (Effects.spark F plat led time strip pkt)
  | .stopLight => pure' (Effects.stopLight F led time strip)
  | .swingingLights => pure' (Effects.swingingLights F plat led time strip pkt)

/-- `GetRGB` with the implicit conversion to `CRGB`. lib/effect/Effect.hpp:16-18. -/
def getRGB (F : FastLED) (plat : Platform) (e : Effect) (led : U8) (time : U32)
    (strip : Strip) (pkt : Packet) (rng : U16) : Except Fault (CRGB × U16) :=
  (e.getColour F plat led time strip pkt rng).map fun r => (r.1.toRGB F, r.2)

end Effect

end Firefly
