import Verif.Props.Motion

/-! # The rainbow of one colour (C103) -/

namespace Firefly.Props
open Spec

/-- C103: with one colour, on a strip that is not tiny, that colour in the brightness of a wave of 4096 ms that
moves one LED every 128 ms, limited to two thirds unless the strip is bright. -/
theorem rainbow_pulse (F : FastLED) (plat : Platform) (led : U8) (t : U32) (strip : Strip)
    (pkt : Packet) (rng : U16) (hpkt : NamesPalette plat pkt) {c : CHSV}
    (hp : palettes[pkt.data[2].toNat]? = some [c]) (htiny : strip.flagEnabled .tiny = false) :
    ∃ v, Effect.rainbow.getColour F plat led t strip pkt rng = .ok (.hsv { c with v := v }, rng) ∧
      v.toNat = let wave := (F.cubicwave8 (BitVec.ofNat 8 ((t.toNat / 16 + 8 * led.toNat) % 256))).toNat
        if strip.flagEnabled .bright then wave else wave * 2 / 3 := by
  have hpal := paletteOf_named hpkt hp
  have h : ((t / 16 + BitVec.ofNat 32 (led.toNat * 8)).setWidth 8 : U8) =
      BitVec.ofNat 8 ((t.toNat / 16 + 8 * led.toNat) % 256) := by
    apply BitVec.eq_of_toNat_eq
    rw [BitVec.toNat_setWidth, BitVec.toNat_ofNat, BitVec.toNat_add, BitVec.toNat_ofNat, div_toNat,
      show (16 : U32).toNat = 16 from rfl]
    omega
  have hsize : Palette.size [c] < 2 := by show (1 : U8) < 2; decide
  have hg : Palette.getColor [c] 0 = .ok c := rfl
  have hw := (F.cubicwave8 (BitVec.ofNat 8 ((t.toNat / 16 + 8 * led.toNat) % 256))).isLt
  simp only [Effect.getColour, Effects.rainbow, hpal, bind, Except.bind, if_pos hsize, htiny, hg, h,
    Except.map, pure, Except.pure]
  cases strip.flagEnabled .bright
  · refine ⟨BitVec.ofNat 8 ((F.cubicwave8 (BitVec.ofNat 8 ((t.toNat / 16 + 8 * led.toNat) % 256))).toNat * 2 / 3),
      rfl, ?_⟩
    rw [BitVec.toNat_ofNat]
    simp only [Bool.false_eq_true, if_false]
    omega
  · exact ⟨_, rfl, rfl⟩

/-- C103: on a tiny strip a rainbow of one colour stands still: all LEDs show the colour as the palette has it,
also if the strip is not bright. -/
theorem rainbow_still (F : FastLED) (plat : Platform) (led : U8) (t : U32) (strip : Strip)
    (pkt : Packet) (rng : U16) (hpkt : NamesPalette plat pkt) {c : CHSV}
    (hp : palettes[pkt.data[2].toNat]? = some [c]) (htiny : strip.flagEnabled .tiny = true) :
    Effect.rainbow.getColour F plat led t strip pkt rng = .ok (.hsv c, rng) := by
  have hpal := paletteOf_named hpkt hp
  have hsize : Palette.size [c] < 2 := by show (1 : U8) < 2; decide
  have hg : ∀ x, Palette.getGradient F [c] x = .ok c := fun _ => rfl
  simp only [Effect.getColour, Effects.rainbow, hpal, bind, Except.bind, if_pos hsize, htiny, hg,
    Except.map, pure, Except.pure, if_true]

/-- Two seconds into the green rainbow, on a strip of ten LEDs: half of the wave for the first LED. On a tiny strip:
green. -/
example :
    Effect.rainbow.getColour .reference .arduino 0 2048 ⟨10, 0⟩
        ⟨1, .setEffect, 3, (Vector.replicate 58 0).set 2 3⟩ 0 = .ok (.hsv ⟨96, 255, 170⟩, 0) ∧
    Effect.rainbow.getColour .reference .arduino 0 2048 ⟨10, 1⟩
        ⟨1, .setEffect, 3, (Vector.replicate 58 0).set 2 3⟩ 0 = .ok (.hsv ⟨96, 255, 255⟩, 0) ∧
    palettes[(3 : U8).toNat]? = some [⟨96, 255, 255⟩] := by
  decide +kernel

end Firefly.Props
