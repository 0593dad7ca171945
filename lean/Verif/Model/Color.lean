import Verif.Model.FastLED

/-! # Colour palettes (lib/color/ColorPalette.hpp, lib/color/ColorPalette.cpp) -/

namespace Firefly

/-- `class ColorPalette`, lib/color/ColorPalette.hpp:8-26: a vector of colours. -/
abbrev Palette := List CHSV

namespace Palette

/-- `ColorPalette::Size`, lib/color/ColorPalette.hpp:13 (returned as `uint8_t`). -/
def size (p : Palette) : U8 := BitVec.ofNat 8 p.length

/-- `ColorPalette::GetColor`, lib/color/ColorPalette.cpp:3-5: `colors[index % colors.size()]`;
the modulus is a `size_t`. -/
def getColor (p : Palette) (index : U8) : Except Fault CHSV :=
  if h : p.length = 0 then .error .divByZero
  else .ok (p[index.toNat % p.length]'(Nat.mod_lt _ (Nat.pos_of_ne_zero h)))

/-- The hue part of the interpolation, lib/color/ColorPalette.cpp:33-46.  `abs(start.h -
finish.h) < MAX_UINT8 >> 1` compares `int`s with 127. -/
def lerpHue (F : FastLED) (start finish : U8) (t : U16) : U8 :=
  if ((start.toNat : Int) - finish.toNat).natAbs < 127 then
    (F.lerp16by16 (start.setWidth 16) (finish.setWidth 16) t).setWidth 8
  else
    let hue : U16 :=
      if start < finish then F.lerp16by16 (start.setWidth 16 + 255) (finish.setWidth 16) t
      else F.lerp16by16 (start.setWidth 16) (finish.setWidth 16 + 255) t
    let hue : U16 := if (255 : U16) < hue then hue - 255 else hue
    hue.setWidth 8

/-- `ColorPalette::GetGradient`, lib/color/ColorPalette.cpp:7-52.  `size` is a `uint8_t`, so
it is the number of colours (or one less) modulo 256. -/
def getGradient (F : FastLED) (p : Palette) (position : U16) (wrap : Bool := true) :
    Except Fault CHSV :=
  match p with
  | [] => .ok ⟨0, 0, 0⟩
  | [c] => .ok c
  | p => do
    let size : U8 := if wrap then BitVec.ofNat 8 p.length else BitVec.ofNat 8 (p.length - 1)
    if size = 0 then .error .divByZero
    else
      let colorRange : U16 := 65535 / size.setWidth 16
      let index : U8 := (position / colorRange).setWidth 8
      let t : U16 := ((position.setWidth 32 - index.setWidth 32 * colorRange.setWidth 32) *
        (65535 : U32) / colorRange.setWidth 32).setWidth 16
      let start ← p.getColor index
      if position % colorRange = 0 then .ok start
      else
        let finish ← p.getColor (index + 1)
        .ok ⟨lerpHue F start.h finish.h t,
          (F.lerp16by16 (start.s.setWidth 16) (finish.s.setWidth 16) t).setWidth 8,
          (F.lerp16by16 (start.v.setWidth 16) (finish.v.setWidth 16) t).setWidth 8⟩

end Palette

end Firefly
