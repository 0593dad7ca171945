import Verif.Model.Packet

/-!
# The part of FastLED the code uses

FastLED is a third-party library that is *not* in the repository (platformio.ini:24,58 pin
three different forks).  Its functions are therefore parameters: the record `FastLED` lists
the ones called from /repo, and every definition of the model takes such a record.  Theorems
that need nothing of the library hold for every record; the others assume `FastLED.Lawful`,
the documented arithmetic of those functions.  `FastLED.reference` is the portable C code of
FastLED's lib8tion, and `FastLED.reference_lawful` (Verif/Lemmas/FastLED.lean) proves that it
satisfies the laws, so they are not vacuous.
-/

namespace Firefly

/-- FastLED `CHSV`. Not in /repo; used e.g. in lib/color/ColorPalette.hpp. -/
structure CHSV where
  h : U8
  s : U8
  v : U8
  deriving DecidableEq, Repr

/-- `CRGB::Black`, and `CRGB(0, 0, 0)`. Not in /repo; used e.g. in lib/effect/DarkEffect.cpp. -/
def CRGB.black : CRGB := ⟨0, 0, 0⟩

/-- FastLED `operator/(const CRGB&, uint8_t)`: divides each component.  The divisor is a non-zero
constant at every call in the repository. Not in /repo; used in lib/led_manager/LedManager.cpp. -/
def CRGB.divBy (c : CRGB) (d : U8) : CRGB := ⟨c.r / d, c.g / d, c.b / d⟩

/-- FastLED functions called by the repository.  `int16_t` arguments and results are given as
their 16-bit patterns. Not in /repo; called from lib/effect/*.cpp, lib/math/Perlin.hpp and
lib/color/ColorPalette.cpp. -/
structure FastLED where
  /-- `uint16_t lerp16by16(uint16_t a, uint16_t b, fract16 frac)` -/
  lerp16by16 : U16 → U16 → U16 → U16
  /-- `int16_t lerp15by8(int16_t a, int16_t b, fract8 frac)` -/
  lerp15by8 : U16 → U16 → U8 → U16
  /-- `int16_t sin16(uint16_t theta)` -/
  sin16 : U16 → U16
  /-- `uint8_t sin8(uint8_t theta)` -/
  sin8 : U8 → U8
  /-- `uint8_t cos8(uint8_t theta)` -/
  cos8 : U8 → U8
  /-- `uint8_t cubicwave8(uint8_t in)` -/
  cubicwave8 : U8 → U8
  /-- `fract8 ease8InOutApprox(fract8 i)` -/
  ease8InOutApprox : U8 → U8
  /-- `uint8_t qadd8(uint8_t i, uint8_t j)` -/
  qadd8 : U8 → U8 → U8
  /-- `CHSV blend(const CHSV&, const CHSV&, fract8 amountOfP2, SHORTEST_HUES)` -/
  blend : CHSV → CHSV → U8 → CHSV
  /-- `hsv2rgb_rainbow`, also the implicit conversion from `CHSV` to `CRGB` -/
  hsv2rgb : CHSV → CRGB
  /-- `uint8_t random8()`: result and next state of the global 16-bit generator state that
  `random16_set_seed` overwrites -/
  random8 : U16 → U8 × U16

namespace FastLED

/-- What theorems may assume of the library. Not in /repo: the library is a dependency
(platformio.ini). -/
structure Lawful (F : FastLED) : Prop where
  /-- linear interpolation, rounded towards `a` -/
  lerp16by16 : ∀ a b f, (F.lerp16by16 a b f).toNat =
    if a < b then a.toNat + (b.toNat - a.toNat) * (1 + f.toNat) / 65536
    else a.toNat - (a.toNat - b.toNat) * (1 + f.toNat) / 65536
  /-- linear interpolation of signed numbers, rounded towards `a` -/
  lerp15by8 : ∀ a b f, (F.lerp15by8 a b f).toInt =
    if a.toInt < b.toInt then a.toInt + (b.toInt - a.toInt) * (1 + f.toNat) / 256
    else a.toInt - (a.toInt - b.toInt) * (1 + f.toNat) / 256
  /-- the sine is odd-symmetric in range: it never reaches -32768 -/
  sin16_range : ∀ x, -32767 ≤ (F.sin16 x).toInt
  /-- the sine is not negative in the first half of the circle and not positive in the second -/
  sin16_sign : ∀ x, (x.toNat < 32768 → 0 ≤ (F.sin16 x).toInt) ∧
    (32768 ≤ x.toNat → (F.sin16 x).toInt ≤ 0)
  /-- saturating addition -/
  qadd8 : ∀ a b, (F.qadd8 a b).toNat = min 255 (a.toNat + b.toNat)
  /-- a colour of value 0 is black -/
  hsv2rgb_black : ∀ c, c.v = 0 → F.hsv2rgb c = CRGB.black

/-- lib8tion `scale8` (with `FASTLED_SCALE8_FIXED`). Not in /repo: a dependency (platformio.ini).
-/
def scale8 (i scale : U8) : U8 := BitVec.ofNat 8 (i.toNat * (1 + scale.toNat) / 256)

/-- lib8tion `sin16_C`. Not in /repo: a dependency (platformio.ini). -/
def refSin16 (theta : U16) : U16 :=
  let base : Vector Nat 8 := #v[0, 6393, 12539, 18204, 23170, 27245, 30273, 32137]
  let slope : Vector Nat 8 := #v[49, 48, 44, 38, 31, 23, 14, 4]
  let o0 := (theta.toNat % 0x4000) / 8
  let o := if theta.getLsbD 14 then 2047 - o0 else o0
  let section_ := (o / 256) % 8
  let y := slope[section_]! * ((o % 256) / 2) + base[section_]!
  if theta.getLsbD 15 then - BitVec.ofNat 16 y else BitVec.ofNat 16 y

/-- lib8tion `sin8_C`. Not in /repo: a dependency (platformio.ini). -/
def refSin8 (theta : U8) : U8 :=
  let base : Vector Nat 4 := #v[0, 49, 90, 117]
  let slope : Vector Nat 4 := #v[49, 41, 27, 10]
  let o := (if theta.getLsbD 6 then 255 - theta.toNat else theta.toNat) % 64
  let sec := o % 16 + (if theta.getLsbD 6 then 1 else 0)
  let y : U8 := BitVec.ofNat 8 (slope[o / 16]! * sec / 16 + base[o / 16]!)
  (if theta.getLsbD 7 then - y else y) + 128

/-- lib8tion `cubicwave8` = `ease8InOutCubic(triwave8(in))`. Not in /repo: a dependency
(platformio.ini). -/
def refCubicwave8 (x : U8) : U8 :=
  let i : U8 := (if x.getLsbD 7 then 255 - x else x) <<< 1
  let ii := scale8 i i
  let iii := scale8 ii i
  let r1 : U16 := 3 * ii.setWidth 16 - 2 * iii.setWidth 16
  if r1.getLsbD 8 then 255 else r1.setWidth 8

/-- lib8tion `ease8InOutApprox`. Not in /repo; called at lib/math/Perlin.hpp. -/
def refEase (i : U8) : U8 :=
  if i < 64 then i / 2
  else if 191 < i then 255 - (255 - i) / 2
  else (i - 64) + (i - 64) / 2 + 32

/-- FastLED `blend` with `SHORTEST_HUES`. Not in /repo; called in lib/color/ColorPalette.cpp. -/
def refBlend (p q : CHSV) (amount : U8) : CHSV :=
  if amount = 0 then p
  else if amount = 255 then q
  else
    let d := q.h - p.h
    let h := if 127 < d then p.h - scale8 (- d) amount else p.h + scale8 d amount
    ⟨h, scale8 p.s (255 - amount) + scale8 q.s amount,
      scale8 p.v (255 - amount) + scale8 q.v amount⟩

/-- The portable C implementations of lib8tion.  The colour conversion is a stand-in (grey of the
same value): no theorem uses more of it than that value 0 is black. Not in /repo: a dependency
(platformio.ini). -/
def reference : FastLED where
  lerp16by16 a b f :=
    if a < b then a + BitVec.ofNat 16 ((b.toNat - a.toNat) * (1 + f.toNat) / 65536)
    else a - BitVec.ofNat 16 ((a.toNat - b.toNat) * (1 + f.toNat) / 65536)
  lerp15by8 a b f :=
    if a.toInt < b.toInt then a + BitVec.ofNat 16 ((b - a).toNat * (1 + f.toNat) / 256)
    else a - BitVec.ofNat 16 ((a - b).toNat * (1 + f.toNat) / 256)
  sin16 := refSin16
  sin8 := refSin8
  cos8 x := refSin8 (x + 64)
  cubicwave8 := refCubicwave8
  ease8InOutApprox := refEase
  qadd8 a b := BitVec.ofNat 8 (min 255 (a.toNat + b.toNat))
  blend := refBlend
  hsv2rgb c := ⟨c.v, c.v, c.v⟩
  random8 s :=
    let s' := s * 2053 + 13849
    ((s' + (s' >>> 8)).setWidth 8, s')

end FastLED

end Firefly
