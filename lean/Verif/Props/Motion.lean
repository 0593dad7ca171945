import Verif.Props.Patterns
import Verif.Spec.Motion
import Verif.Lemmas.Bits

/-! # Properties of the moving patterns -/

namespace Firefly.Props
open Firefly Spec

/-! ## C101: swinging lights -/

theorem swingOne_part {F : FastLED} (hF : F.Lawful) {p : Palette} (hp : 1 ≤ p.length)
    (hp' : p.length ≤ 255) (strip : Strip) (led : Nat) (ms : Nat) (pos : U16)
    (hpos : pos.toNat = swingLed strip led) (col : CRGB) (i : Nat) (hi : i < p.length) :
    ∃ c, Effects.swingOne F p (BitVec.ofNat 16 (ms % 5000 * 65535 / 5000)) pos col i = .ok c ∧
      ∀ part ∈ [CRGB.r, CRGB.g, CRGB.b],
        (part c).toNat = min 255 ((part col).toNat + swingPart F p part strip led ms i) := by
  have hsize : p.size.toNat = p.length := by
    rw [Palette.size, BitVec.toNat_ofNat]; omega
  have hsum : BitVec.ofNat 16 (i * 65535 / p.size.toNat) +
      BitVec.ofNat 16 (ms % 5000 * 65535 / 5000) =
      BitVec.ofNat 16 (i * 65535 / p.length + ms % 5000 * 65535 / 5000) := by
    rw [hsize, BitVec.ofNat_add]
  have hplace : ((F.sin16 (BitVec.ofNat 16 (i * 65535 / p.length + ms % 5000 * 65535 / 5000)) +
      32767).toNat : Int) = swingPlace F p.length i ms := by
    unfold swingPlace
    have h := hF.sin16_range (BitVec.ofNat 16 (i * 65535 / p.length + ms % 5000 * 65535 / 5000))
    generalize F.sin16 _ = s at *
    have := s.isLt
    rw [BitVec.toNat_add, show (32767 : U16).toNat = 32767 from rfl]
    rw [BitVec.toInt_eq_toNat_cond] at *
    omega
  have hget : p.getColor (BitVec.ofNat 8 i) = .ok (p.getD i ⟨0, 0, 0⟩) := by
    rw [getColor_wraps p (by omega)]
    congr 1
    have : (BitVec.ofNat 8 i).toNat % p.length = i := by
      rw [BitVec.toNat_ofNat, Nat.mod_eq_of_lt (a := i) (by omega), Nat.mod_eq_of_lt hi]
    simp only [this, List.getD_eq_getElem?_getD, List.getElem?_eq_getElem hi, Option.getD_some]
  simp only [Effects.swingOne, hsum, hplace, hget, bind, Except.bind, pure, Except.pure,
    show Effects.kSpread = 13107 from rfl, swingPart, hpos]
  generalize p.getD i ⟨0, 0, 0⟩ = c
  generalize (swingPlace F p.length i ms - (swingLed strip led : Int)).natAbs = d
  by_cases hd : d < 13107
  · rw [if_pos (by omega)]
    have hv : BitVec.ofInt 8 ((-((d : Int) - (13107 : Nat)) * c.v.toNat).tdiv (13107 : Nat)) =
        BitVec.ofNat 8 (swingValue c.v.toNat d) := by
      rw [swingValue, if_pos hd, show -((d : Int) - (13107 : Nat)) = ((13107 - d : Nat) : Int) by
        omega, ← Int.natCast_mul, ← Int.ofNat_tdiv]
      rfl
    refine ⟨_, rfl, ?_⟩
    intro part hpart
    rw [hv]
    simp only [Effects.addInPlace]
    simp only [List.mem_cons, List.not_mem_nil, or_false] at hpart
    rcases hpart with rfl | rfl | rfl
    all_goals exact hF.qadd8 _ _
  · rw [if_neg (by omega)]
    refine ⟨_, rfl, ?_⟩
    intro part hpart
    rw [swingValue, if_neg hd, hF.hsv2rgb_black _ rfl]
    simp only [List.mem_cons, List.not_mem_nil, or_false] at hpart
    rcases hpart with rfl | rfl | rfl
    · have := col.r.isLt
      show col.r.toNat = min 255 (col.r.toNat + 0); omega
    · have := col.g.isLt
      show col.g.toNat = min 255 (col.g.toNat + 0); omega
    · have := col.b.isLt
      show col.b.toNat = min 255 (col.b.toNat + 0); omega

theorem swing_fold {F : FastLED} (hF : F.Lawful) {p : Palette} (hp : 1 ≤ p.length)
    (hp' : p.length ≤ 255) (strip : Strip) (led : Nat) (ms : Nat) (pos : U16)
    (hpos : pos.toNat = swingLed strip led) (m : Nat) (hm : m ≤ p.length) :
    ∃ c, (List.range m).foldlM
        (Effects.swingOne F p (BitVec.ofNat 16 (ms % 5000 * 65535 / 5000)) pos) CRGB.black = .ok c ∧
      ∀ part ∈ [CRGB.r, CRGB.g, CRGB.b],
        (part c).toNat = min 255 ((List.range m).map (swingPart F p part strip led ms)).sum := by
  induction m with
  | zero =>
    refine ⟨CRGB.black, rfl, ?_⟩
    intro part hpart
    simp only [List.mem_cons, List.not_mem_nil, or_false] at hpart
    rcases hpart with rfl | rfl | rfl <;> rfl
  | succ m ih =>
    obtain ⟨c, h1, h2⟩ := ih (by omega)
    obtain ⟨c', h3, h4⟩ := swingOne_part hF hp hp' strip led ms pos hpos c m (by omega)
    refine ⟨c', ?_, ?_⟩
    · rw [List.range_succ, List.foldlM_append, h1]
      simp only [List.foldlM, bind, Except.bind, h3, pure, Except.pure]
    · intro part hpart
      rw [h4 part hpart, h2 part hpart, List.range_succ, List.map_append, List.sum_append]
      simp only [List.map_cons, List.map_nil, List.sum_cons, List.sum_nil]
      omega

/-- C101: the picture of the swinging lights is the sum (per colour component, saturating) of
one light per palette colour, each at its own place and visible up to a fifth of the strip
away. -/
theorem swinging_lights_sum {F : FastLED} (hF : F.Lawful) (plat : Platform) (led : U8) (t : U32)
    (strip : Strip) (pkt : Packet) (rng : U16) (hled : led < strip.count)
    (hpkt : NamesPalette plat pkt) {p : Palette} (hp : palettes[pkt.data[2].toNat]? = some p) :
    ∃ c, Effect.swingingLights.getColour F plat led t strip pkt rng = .ok (.rgb c, rng) ∧
      ∀ part ∈ [CRGB.r, CRGB.g, CRGB.b], (part c).toNat =
        min 255 ((List.range p.length).map (swingPart F p part strip led.toNat t.toNat)).sum := by
  have hpal := paletteOf_named hpkt hp
  have hsm := palettes_small p (List.mem_of_getElem? hp)
  have hsize : p.size.toNat = p.length := by
    rw [Palette.size, BitVec.toNat_ofNat]; omega
  have key : ∀ q : Nat, q = swingLed strip led.toNat → q < 65536 →
      ∃ c, (List.range p.size.toNat).foldlM (Effects.swingOne F p
        (BitVec.ofNat 16 (t.toNat % 5000 * 65535 / 5000)) (BitVec.ofNat 16 q)) CRGB.black = .ok c ∧
      ∀ part ∈ [CRGB.r, CRGB.g, CRGB.b], (part c).toNat =
        min 255 ((List.range p.length).map (swingPart F p part strip led.toNat t.toNat)).sum := by
    intro q hq hlt
    rw [hsize]
    exact swing_fold hF hsm.1 (by omega) strip led.toNat t.toNat (BitVec.ofNat 16 q)
      (by rw [BitVec.toNat_ofNat, ← hq]; omega) _ (Nat.le_refl _)
  by_cases htiny : strip.flagEnabled .tiny ∧ ¬ strip.flagEnabled .circular
  · obtain ⟨c, h1, h2⟩ := key 0 (by rw [swingLed, if_pos htiny]) (by decide)
    refine ⟨c, ?_, h2⟩
    simp only [Effect.getColour, Effects.swingingLights, if_pos htiny, bind, Except.bind, pure,
      Except.pure, show divNat ((0 : U8).toNat * 65535) (50 : U8).toNat = .ok 0 from rfl, hpal, h1,
      Except.map]
  · obtain ⟨l, c, hm, hl, hc, hc0, hlc⟩ :=
      mirrored_coordinate (strip := strip) (led := led) hled
    have hq : l.toNat * 65535 / c.toNat = swingLed strip led.toNat := by
      rw [swingLed, if_neg htiny, hl, hc]
    have hlt : l.toNat * 65535 / c.toNat < 65536 := by
      apply Nat.div_lt_of_lt_mul
      have : l.toNat * 65535 ≤ c.toNat * 65535 := Nat.mul_le_mul_right _ (by omega)
      omega
    have hdiv : divNat (l.toNat * 65535) c.toNat = .ok (l.toNat * 65535 / c.toNat) := by
      rw [divNat, if_neg (by omega)]
    obtain ⟨c', h1, h2⟩ := key _ hq hlt
    refine ⟨c', ?_, h2⟩
    simp only [Effect.getColour, Effects.swingingLights, if_neg htiny, hm, bind, Except.bind, pure,
      Except.pure, hdiv, hpal, h1, Except.map]

/-- C101: an LED a fifth of the strip or more away from every light is black. -/
theorem swinging_lights_dark {F : FastLED} (hF : F.Lawful) (plat : Platform) (led : U8) (t : U32)
    (strip : Strip) (pkt : Packet) (rng : U16) (hled : led < strip.count)
    (hpkt : NamesPalette plat pkt) {p : Palette} (hp : palettes[pkt.data[2].toNat]? = some p)
    (hfar : ∀ i < p.length,
      13107 ≤ (swingPlace F p.length i t.toNat - swingLed strip led.toNat).natAbs) :
    Effect.swingingLights.getColour F plat led t strip pkt rng = .ok (.rgb ⟨0, 0, 0⟩, rng) := by
  obtain ⟨c, h1, h2⟩ := swinging_lights_sum hF plat led t strip pkt rng hled hpkt hp
  have hz : ∀ part ∈ [CRGB.r, CRGB.g, CRGB.b], (part c).toNat = 0 := by
    intro part hpart
    rw [h2 part hpart]
    have : ((List.range p.length).map (swingPart F p part strip led.toNat t.toNat)).sum = 0 := by
      rw [List.sum_eq_zero_iff_forall_eq_nat]
      intro x hx
      obtain ⟨i, hi, rfl⟩ := List.mem_map.1 hx
      have hi := hfar i (List.mem_range.1 hi)
      simp only [swingPart, swingValue]
      rw [if_neg (by omega), hF.hsv2rgb_black _ rfl]
      simp only [List.mem_cons, List.not_mem_nil, or_false] at hpart
      rcases hpart with rfl | rfl | rfl <;> rfl
    rw [this]; rfl
  rw [h1]
  obtain ⟨r, g, b⟩ := c
  have hr : r = 0 := BitVec.eq_of_toNat_eq (hz CRGB.r (by simp))
  have hg : g = 0 := BitVec.eq_of_toNat_eq (hz CRGB.g (by simp))
  have hb : b = 0 := BitVec.eq_of_toNat_eq (hz CRGB.b (by simp))
  rw [hr, hg, hb]

/-- A strip of 60 LEDs showing palette 8 (red, green, blue). -/
def motionPacket : Packet :=
  { id := 7, type := .setEffect, len := 3, data := (Vector.replicate 58 0).set 2 8 }

example : NamesPalette .host motionPacket ∧ palettes[motionPacket.data[2].toNat]? =
    some [⟨0, 255, 255⟩, ⟨96, 255, 255⟩, ⟨160, 255, 255⟩] :=
  ⟨⟨fun _ => ⟨rfl, rfl⟩, by decide⟩, by decide⟩

/-- After 1 s the lights are at 63754, 25990 and 8543 of 65535; LED 17 of 60 is between the
second and the third and gets light from both, LED 40 from none. -/
example : (List.range 3).map (swingPlace FastLED.reference 3 · 1000) = [63754, 25990, 8543] ∧
    swingLed (Strip.new 60 []) 17 = 18568 ∧
    (List.range 3).map (swingPart FastLED.reference [⟨0, 255, 255⟩, ⟨96, 255, 255⟩, ⟨160, 255, 255⟩]
      CRGB.r (Strip.new 60 []) 17 1000) = [0, 110, 59] ∧
    ∀ i < 3, 13107 ≤ (swingPlace FastLED.reference 3 i 1000 -
      swingLed (Strip.new 60 []) 40).natAbs := by
  decide +kernel

/-! ## C102: lightning -/

/-- C102: under the lightning effect an LED is lit exactly where the noise exceeds 160, then
with the noise as its value, and black otherwise; so it is never dimmer than 161 while lit. -/
theorem lightning_flashes (F : FastLED) (plat : Platform) (led : U8) (t : U32) (strip : Strip)
    (pkt : Packet) (rng : U16) (hpkt : NamesPalette plat pkt) :
    ∃ c rng', Effect.lightning.getColour F plat led t strip pkt rng = .ok (.hsv c, rng') ∧
      let noise := (perlinNoise F (BitVec.ofNat 32 (64 * led.toNat))
        (BitVec.ofNat 32 (t.toNat / 6)) rng).1.toNat
      (160 < noise → c.v.toNat = noise) ∧ (noise ≤ 160 → c.v.toNat = 0) ∧
      (c.v.toNat = 0 ∨ 161 ≤ c.v.toNat) := by
  obtain ⟨p, hp, hmem⟩ := paletteOf_ok hpkt
  have ht : (BitVec.ofNat 32 (t.toNat / 6) : U32) = t / 6 := by
    apply BitVec.eq_of_toNat_eq
    rw [div_toNat, BitVec.toNat_ofNat, show (6 : U32).toNat = 6 from rfl]
    have := t.isLt
    omega
  rw [ht, Nat.mul_comm 64]
  generalize hn : perlinNoise F (BitVec.ofNat 32 (led.toNat * 64)) (t / 6) rng = nr
  obtain ⟨n, rng'⟩ := nr
  obtain ⟨c, hc⟩ := getGradient_ok hmem F
    ((BitVec.ofInt 32 (((n.toNat : Int) - 160) * 512) + t).setWidth 16) true
  refine ⟨{ c with v := if 160 < n then n else 0 }, rng', ?_, ?_⟩
  · simp only [Effect.getColour, Effects.lightning, hp, bind, Except.bind, hn, hc, pure,
      Except.pure]
  · simp only [BitVec.lt_def, show (160 : U8).toNat = 160 from rfl]
    by_cases h : 160 < n.toNat
    · rw [if_pos h]; exact ⟨fun _ => rfl, by omega, .inr (by omega)⟩
    · rw [if_neg h]; exact ⟨by omega, fun _ => rfl, .inl rfl⟩

/-- A flash at LED 5, and darkness at LED 4, at the same moment. -/
example : (perlinNoise FastLED.reference (BitVec.ofNat 32 (64 * 5)) (BitVec.ofNat 32 (12500 / 6))
      0).1.toNat = 180 ∧
    Effect.lightning.getColour FastLED.reference .host 5 12500 (Strip.new 60 []) motionPacket 0 =
      .ok (.hsv ⟨0x62, 255, 180⟩, 0x0cd7) ∧
    Effect.lightning.getColour FastLED.reference .host 4 12500 (Strip.new 60 []) motionPacket 0 =
      .ok (.hsv ⟨0x2d, 255, 0⟩, 0x0cd7) := by
  decide +kernel

/-! ## C103: the rainbow travels -/

/-- C103: on a strip that is not tiny, LED `i` of a rainbow in two or more colours shows the
gradient of the palette at the position that started at LED 0 and moves one LED every 128 ms
(1/32 of the palette), at full value on a bright strip and at 128 otherwise.  A tiny strip
shows at all its LEDs what LED 0 of another strip would. -/
theorem rainbow_position (F : FastLED) (plat : Platform) (led : U8) (t : U32) (strip : Strip)
    (pkt : Packet) (rng : U16) (hpkt : NamesPalette plat pkt) {p : Palette}
    (hp : palettes[pkt.data[2].toNat]? = some p) (h2 : 2 ≤ p.length) (pos : U16)
    (hpos : pos.toNat =
      256 * ((t.toNat / 16 + if strip.flagEnabled .tiny then 0 else 8 * led.toNat) % 256)) :
    ∃ g, p.getGradient F pos = .ok g ∧
      Effect.rainbow.getColour F plat led t strip pkt rng =
        .ok (.hsv { g with v := if strip.flagEnabled .bright then 255 else 128 }, rng) := by
  have hpal := paletteOf_named hpkt hp
  have hmem := List.mem_of_getElem? hp
  have hsm := palettes_small p hmem
  obtain ⟨g, hg⟩ := getGradient_ok hmem F pos true
  refine ⟨g, hg, ?_⟩
  have hsize : ¬ p.size < 2 := by
    rw [BitVec.lt_def, Palette.size, BitVec.toNat_ofNat, show (2 : U8).toNat = 2 from rfl]; omega
  have hd : (t / 16).toNat = t.toNat / 16 := by rw [div_toNat]; rfl
  have ht := t.isLt
  by_cases htiny : strip.flagEnabled .tiny = true
  · rw [if_pos htiny] at hpos
    have h : (((t / 16) <<< 8).setWidth 16 : U16) = pos := by
      apply BitVec.eq_of_toNat_eq
      rw [BitVec.toNat_setWidth, BitVec.toNat_shiftLeft, Nat.shiftLeft_eq, hd, hpos]
      omega
    simp only [Effect.getColour, Effects.rainbow, hpal, bind, Except.bind, if_neg hsize,
      if_pos htiny, h, hg, pure, Except.pure, Except.map]
  · rw [if_neg htiny] at hpos
    have h : (((t / 16 + BitVec.ofNat 32 (led.toNat * 8)) <<< 8).setWidth 16 : U16) = pos := by
      apply BitVec.eq_of_toNat_eq
      have := led.isLt
      rw [BitVec.toNat_setWidth, BitVec.toNat_shiftLeft, Nat.shiftLeft_eq, BitVec.toNat_add, hd,
        BitVec.toNat_ofNat, hpos]
      omega
    simp only [Effect.getColour, Effects.rainbow, hpal, bind, Except.bind, if_neg hsize,
      if_neg htiny, h, hg, pure, Except.pure, Except.map]

/-- C103: whatever the palette, the whole picture moves along the strip by one LED every 128 ms:
what LED `i + k` shows now, LED `i` shows `128 k` ms later. -/
theorem rainbow_travels (F : FastLED) (plat : Platform) (i j : U8) (t t' : U32) (strip : Strip)
    (pkt : Packet) (rng : U16) (htiny : strip.flagEnabled .tiny = false) (k : Nat)
    (hj : j.toNat = i.toNat + k) (ht : t'.toNat = t.toNat + 128 * k) :
    Effect.rainbow.getColour F plat i t' strip pkt rng =
      Effect.rainbow.getColour F plat j t strip pkt rng := by
  have h : t' / 16 + BitVec.ofNat 32 (i.toNat * 8) = t / 16 + BitVec.ofNat 32 (j.toNat * 8) := by
    apply BitVec.eq_of_toNat_eq
    have := i.isLt
    have := j.isLt
    have := t'.isLt
    rw [BitVec.toNat_add, BitVec.toNat_add, BitVec.toNat_ofNat, BitVec.toNat_ofNat, div_toNat,
      div_toNat, show (16 : U32).toNat = 16 from rfl]
    omega
  simp only [Effect.getColour, Effects.rainbow, htiny, h, Bool.false_eq_true, if_false]

/-- LED 6 after 0.8 s is at position 98 of 256. -/
example : (800 / 16 + 8 * 6) % 256 = 98 ∧
    Effect.rainbow.getColour FastLED.reference .host 6 800 (Strip.new 60 []) motionPacket 0 =
      .ok (.hsv ⟨0x69, 255, 128⟩, 0) := by
  decide +kernel

/-! ## C104: palette display -/

/-- C104: the palette display shows the whole palette once along the strip and stands still: LED
`i` of `n` shows the gradient `i / n` of the way, halved unless the strip is bright.  (If a
palette of at most four colours has more colours than the strip has LEDs, all LEDs show the
gradient in time instead.) -/
theorem palette_display_gradient (F : FastLED) (plat : Platform) (led : U8) (t : U32) (strip : Strip)
    (pkt : Packet) (rng : U16) (hled : led < strip.count) (hpkt : NamesPalette plat pkt)
    {p : Palette} (hp : palettes[pkt.data[2].toNat]? = some p) (pos : U16)
    (hpos : pos.toNat = if strip.count.toNat < p.length ∧ p.length ≤ 4 then
      t.toNat / 2 * 23 % 65536 else led.toNat * 65536 / strip.count.toNat) :
    ∃ g, p.getGradient F pos = .ok g ∧
      Effect.displayColorPalette.getColour F plat led t strip pkt rng =
        .ok (.hsv { g with v := if strip.flagEnabled .bright then g.v else g.v / 2 }, rng) := by
  have hpal := paletteOf_named hpkt hp
  have hmem := List.mem_of_getElem? hp
  have hsm := palettes_small p hmem
  obtain ⟨g, hg⟩ := getGradient_ok hmem F pos true
  refine ⟨g, hg, ?_⟩
  have hsz : p.size.toNat = p.length := by
    rw [Palette.size, BitVec.toNat_ofNat]; omega
  have hiff : (strip.count < p.size ∧ p.size ≤ 4) ↔
      (strip.count.toNat < p.length ∧ p.length ≤ 4) := by
    rw [BitVec.lt_def, BitVec.le_def, hsz]; rfl
  have hled' : led.toNat < strip.count.toNat := hled
  by_cases h : strip.count.toNat < p.length ∧ p.length ≤ 4
  · rw [if_pos h] at hpos
    have he : ((t / 2 * 23).setWidth 16 : U16) = pos := by
      apply BitVec.eq_of_toNat_eq
      rw [BitVec.toNat_setWidth, BitVec.toNat_mul, div_toNat, hpos,
        show (2 : U32).toNat = 2 from rfl, show (23 : U32).toNat = 23 from rfl]
      omega
    by_cases hb : strip.flagEnabled .bright = true
    · simp only [Effect.getColour, Effects.displayColorPalette, hpal, bind, Except.bind,
        if_pos (hiff.2 h), he, hg, hb, pure, Except.pure, Except.map, not_true_eq_false, if_false,
        if_true]
    · simp only [Effect.getColour, Effects.displayColorPalette, hpal, bind, Except.bind,
        if_pos (hiff.2 h), he, hg, hb, pure, Except.pure, Except.map, not_false_eq_true, if_true,
        Bool.false_eq_true, if_false]
  · rw [if_neg h] at hpos
    have hdiv : divNat (led.toNat * 65536) strip.count.toNat =
        .ok (led.toNat * 65536 / strip.count.toNat) := by
      rw [divNat, if_neg (by omega)]
    have he : BitVec.ofNat 16 (led.toNat * 65536 / strip.count.toNat) = pos := by
      apply BitVec.eq_of_toNat_eq
      rw [BitVec.toNat_ofNat, ← hpos]
      exact Nat.mod_eq_of_lt pos.isLt
    by_cases hb : strip.flagEnabled .bright = true
    · simp only [Effect.getColour, Effects.displayColorPalette, hpal, bind, Except.bind,
        if_neg (mt hiff.1 h), hdiv, he, hg, hb, pure, Except.pure, Except.map, not_true_eq_false,
        if_false, if_true]
    · simp only [Effect.getColour, Effects.displayColorPalette, hpal, bind, Except.bind,
        if_neg (mt hiff.1 h), hdiv, he, hg, hb, pure, Except.pure, Except.map, not_false_eq_true,
        if_true, Bool.false_eq_true, if_false]

/-- C62: the colour a blinker shows while it is lit is the one of the palette's gradient at a position that
advances by 23 every 4 ms; its value is halved on strips without the Bright flag. -/
theorem blink_colour (F : FastLED) (plat : Platform) (s : U16) (led : U8) (t : U32) (strip : Strip)
    (pkt : Packet) (rng : U16) (hs : 1 ≤ s.toNat) (hpkt : NamesPalette plat pkt) {p : Palette}
    (hp : palettes[pkt.data[2].toNat]? = some p) (pos : U16)
    (hpos : pos.toNat = t.toNat / 4 * 23 % 65536) (hon : t.toNat % (3 * s.toNat) < s.toNat) :
    ∃ g, p.getGradient F pos = .ok g ∧
      (Effect.simpleBlink s).getColour F plat led t strip pkt rng =
        .ok (.hsv { g with v := if strip.flagEnabled .bright then g.v else g.v / 2 }, rng) := by
  have hpal := paletteOf_named hpkt hp
  obtain ⟨g, hg⟩ := getGradient_ok (List.mem_of_getElem? hp) F pos true
  refine ⟨g, hg, ?_⟩
  have hs0 : s ≠ 0 := by intro h; rw [h] at hs; exact absurd hs (by decide)
  have hchunk : ((t / s.setWidth 32) % 3 : U32) = 0 := by
    have hsl := s.isLt
    have hsw : (s.setWidth 32 : U32).toNat = s.toNat := by
      rw [BitVec.toNat_setWidth]; omega
    rw [← BitVec.toNat_inj, BitVec.toNat_umod, BitVec.toNat_udiv, hsw, show (3 : U32).toNat = 3 from rfl,
      show (0 : U32).toNat = 0 from rfl, ← Nat.mod_mul_right_div_self, Nat.div_eq_zero_iff, Nat.mul_comm]
    exact .inr hon
  have he : ((t / 4 * 23).setWidth 16 : U16) = pos := by
    apply BitVec.eq_of_toNat_eq
    rw [BitVec.toNat_setWidth, BitVec.toNat_mul, div_toNat, hpos, show (4 : U32).toNat = 4 from rfl,
      show (23 : U32).toNat = 23 from rfl]
    omega
  by_cases hb : strip.flagEnabled .bright = true
  · simp only [Effect.getColour, Effects.simpleBlink, if_neg hs0, if_pos hchunk, hpal, bind, Except.bind, he,
      hg, hb, pure, Except.pure, Except.map, not_true_eq_false, if_false, if_true]
  · simp only [Effect.getColour, Effects.simpleBlink, if_neg hs0, if_pos hchunk, hpal, bind, Except.bind, he,
      hg, hb, pure, Except.pure, Except.map, not_false_eq_true, if_true, Bool.false_eq_true, if_false]

/-- C104: so the first LED shows the first colour of the palette. -/
theorem palette_display_first (F : FastLED) (plat : Platform) (t : U32) (strip : Strip)
    (pkt : Packet) (rng : U16) (hled : 0 < strip.count.toNat) (hpkt : NamesPalette plat pkt)
    {c : CHSV} {p : Palette} (hp : palettes[pkt.data[2].toNat]? = some (c :: p))
    (hn : p.length < strip.count.toNat) :
    Effect.displayColorPalette.getColour F plat 0 t strip pkt rng =
      .ok (.hsv { c with v := if strip.flagEnabled .bright then c.v else c.v / 2 }, rng) := by
  obtain ⟨g, hg, h⟩ := palette_display_gradient F plat 0 t strip pkt rng hled hpkt hp 0 (by
    rw [if_neg (by simp only [List.length_cons]; omega)]
    simp)
  have : g = c := by
    have hmem := palettes_small _ (List.mem_of_getElem? hp)
    match p, hmem with
    | [], _ => cases hg; rfl
    | d :: p, hmem =>
      have := gradient_hits_colours F (c :: d :: p) true 0 0 (by simp) (by omega) (by simp)
      rw [this] at hg
      cases hg
      simp
  rw [h, this]

/-- On 60 LEDs the second of three colours is at LED 20. -/
example : Effect.displayColorPalette.getColour FastLED.reference .host 20 5 (Strip.new 60 [.bright])
    motionPacket 0 = .ok (.hsv ⟨96, 255, 255⟩, 0) := by
  decide +kernel

/-! ## C105: fire -/

/-- If all hues of a palette are in a range of less than half a circle, so is the hue of every
gradient; the saturation stays in its range too. -/
theorem gradient_hue_range {F : FastLED} (hF : F.Lawful) {p : Palette} {lo hi slo : Nat}
    (hp : 2 ≤ p.length) (hp' : p.length ≤ 255) (hlh : hi - lo < 127)
    (hh : ∀ c ∈ p, lo ≤ c.h.toNat ∧ c.h.toNat ≤ hi ∧ slo ≤ c.s.toNat)
    {pos : U16} {wrap : Bool} {c : CHSV} (hc : p.getGradient F pos wrap = .ok c) :
    lo ≤ c.h.toNat ∧ c.h.toNat ≤ hi ∧ slo ≤ c.s.toNat := by
  obtain ⟨t, -, e⟩ := Palette.getGradient_eq F p pos wrap hp hp'
  rw [hc] at e
  have ha := hh _ (List.getElem_mem (l := p) (n := pos.toNat / spacing p.length wrap % p.length)
    (Nat.mod_lt _ (by omega)))
  have hb := hh _ (List.getElem_mem (l := p)
    (n := (pos.toNat / spacing p.length wrap + 1) % p.length) (Nat.mod_lt _ (by omega)))
  change Except.ok c = Except.ok (if pos.toNat % spacing p.length wrap = 0 then
    p[pos.toNat / spacing p.length wrap % p.length]'(Nat.mod_lt _ (by omega)) else
    ⟨Palette.lerpHue F (p[pos.toNat / spacing p.length wrap % p.length]'(Nat.mod_lt _ (by omega))).h
      (p[(pos.toNat / spacing p.length wrap + 1) % p.length]'(Nat.mod_lt _ (by omega))).h t,
      (F.lerp16by16
        ((p[pos.toNat / spacing p.length wrap % p.length]'(Nat.mod_lt _ (by omega))).s.setWidth 16)
        ((p[(pos.toNat / spacing p.length wrap + 1) % p.length]'(Nat.mod_lt _
          (by omega))).s.setWidth 16) t).setWidth 8,
      (F.lerp16by16
        ((p[pos.toNat / spacing p.length wrap % p.length]'(Nat.mod_lt _ (by omega))).v.setWidth 16)
        ((p[(pos.toNat / spacing p.length wrap + 1) % p.length]'(Nat.mod_lt _
          (by omega))).v.setWidth 16) t).setWidth 8⟩) at e
  generalize p[pos.toNat / spacing p.length wrap % p.length]'(Nat.mod_lt _ (by omega)) = a at *
  generalize p[(pos.toNat / spacing p.length wrap + 1) % p.length]'(Nat.mod_lt _ (by omega)) = b
    at *
  injection e with e
  split at e
  · subst e; exact ha
  · subst e
    have h1 := setWidth_between hF a.h b.h t
    have h2 := setWidth_between hF a.s b.s t
    unfold Between at h1 h2
    refine ⟨?_, ?_, by simp only; omega⟩ <;>
    · simp only [Palette.lerpHue]
      rw [if_pos (by omega)]
      omega

/-- C105: the fire shows only the colours of a flame: hues from red to yellow (at most 35 of 255),
a saturation of at least 200 and a value from 8 to 192. -/
theorem fire_colours {F : FastLED} (hF : F.Lawful) (plat : Platform) (o : U16) (led : U8) (t : U32)
    (strip : Strip) (pkt : Packet) (rng rng' : U16) {col : Colour}
    (h : (Effect.fire o).getColour F plat led t strip pkt rng = .ok (col, rng')) :
    ∃ c, col = .hsv c ∧ c.h.toNat ≤ 35 ∧ 200 ≤ c.s.toNat ∧ 8 ≤ c.v.toNat ∧ c.v.toNat ≤ 192 := by
  have key : ∀ (n : U8 × U16), (do
      let color ← Effects.firePalette.getGradient F (n.1.setWidth 16 <<< 8) false
      return (Colour.hsv color, n.2) : Except Fault (Colour × U16)) = .ok (col, rng') →
      ∃ c, col = .hsv c ∧ c.h.toNat ≤ 35 ∧ 200 ≤ c.s.toNat ∧ 8 ≤ c.v.toNat ∧ c.v.toNat ≤ 192 := by
    intro n hn
    simp only [bind, Except.bind, pure, Except.pure] at hn
    split at hn
    · cases hn
    · rename_i c hc
      cases hn
      have h1 := gradient_hue_range hF (lo := 0) (hi := 35) (slo := 200) (by decide) (by decide)
        (by decide) (by decide) hc
      have h2 := gradient_value_range hF (lo := 8) (hi := 192) (by decide) (by decide) (by decide) hc
      exact ⟨c, rfl, h1.2.1, h1.2.2, h2⟩
  simp only [Effect.getColour, Effects.fire, bind, Except.bind] at h
  split at h
  · cases h
  · rename_i m hm
    by_cases hc : strip.flagEnabled .circular = true
    · rw [if_pos hc] at h
      split at h
      · cases h
      · exact key (_, _) h
    · rw [if_neg hc] at h
      exact key (_, _) h

example : (Effect.fire 17).getColour FastLED.reference .host 20 5000 (Strip.new 60 []) motionPacket 0 =
    .ok (.hsv ⟨0x18, 0xf9, 0x3b⟩, 0x6ca3) := by
  decide +kernel

/-! ## C106: a firefly glows half of the time -/

/-- C106: a firefly glows by its own clock with the palette's colour of the current second; on the
controller only the even LEDs do. -/
theorem firefly_glows {F : FastLED} (hF : F.Lawful) (plat : Platform) (o : U32) (led : U8) (t : U32)
    (strip : Strip) (pkt : Packet) (rng : U16) (hpkt : NamesPalette plat pkt) {p : Palette}
    (hp : palettes[pkt.data[2].toNat]? = some p) (ho : o.toNat < 512)
    (hctl : strip.flagEnabled .controller = true → led.toNat % 2 = 0 ∧ led.toNat < 32)
    (pos : U16) (hpos : pos.toNat = 256 * (t.toNat / 1024 % 256)) :
    ∃ g v, p.getGradient F pos = .ok g ∧
      (Effect.firefly o).getColour F plat led t strip pkt rng = .ok (.hsv { g with v := v }, rng) ∧
      v.toNat = fireflyGlow F (fireflyClock (fireflyOffset strip o.toNat led.toNat) t.toNat) := by
  have hpal := paletteOf_named hpkt hp
  have hmem := List.mem_of_getElem? hp
  obtain ⟨g, hg⟩ := getGradient_ok hmem F pos true
  have hposeq : (((t / Effects.kBlinkPeriod) <<< 8).setWidth 16 : U16) = pos := by
    apply BitVec.eq_of_toNat_eq
    rw [BitVec.toNat_setWidth, BitVec.toNat_shiftLeft, Nat.shiftLeft_eq, div_toNat, hpos,
      show Effects.kBlinkPeriod.toNat = 1024 from rfl]
    have := t.isLt
    omega
  have hclock : ∀ off : U32, off.toNat < 512 →
      (((Effects.fireflyTime off t).toNat : Int) % 1024) = fireflyClock off.toNat t.toNat % 1024 := by
    intro off hoff
    have hph : ((t / Effects.kPeriodMs) % 3).toNat = t.toNat / 20000 % 3 := by
      rw [BitVec.toNat_umod, div_toNat]; rfl
    have hel : (t - t / Effects.kPeriodMs * Effects.kPeriodMs).toNat = t.toNat % 20000 := by
      have := t.isLt
      rw [BitVec.toNat_sub, BitVec.toNat_mul, div_toNat,
        show Effects.kPeriodMs.toNat = 20000 from rfl]
      omega
    have hrem : (Effects.kPeriodMs - (t - t / Effects.kPeriodMs * Effects.kPeriodMs)).toNat =
        20000 - t.toNat % 20000 := by
      rw [BitVec.toNat_sub, hel, show Effects.kPeriodMs.toNat = 20000 from rfl]
      omega
    have hmul : ∀ x : U32, x.toNat ≤ 20000 →
        (off * x / Effects.kPeriodMs).toNat = off.toNat * x.toNat / 20000 := by
      intro x hx
      have : off.toNat * x.toNat ≤ 512 * 20000 := Nat.mul_le_mul (by omega) hx
      rw [div_toNat, BitVec.toNat_mul, show Effects.kPeriodMs.toNat = 20000 from rfl,
        Nat.mod_eq_of_lt (a := _ * _) (by omega)]
    have hm1 := hmul _ (by rw [hrem]; omega)
    have hm2 := hmul _ (by rw [hel]; omega)
    rw [hrem] at hm1
    rw [hel] at hm2
    have hlt : (off < Effects.kBlinkPeriod / 4) ↔ off.toNat < 256 := Iff.rfl
    have e0 : ((t / Effects.kPeriodMs) % 3 = 0) ↔ t.toNat / 20000 % 3 = 0 := by
      rw [← hph]; exact BitVec.toNat_inj.symm
    have e1 : ((t / Effects.kPeriodMs) % 3 = 1) ↔ t.toNat / 20000 % 3 = 1 := by
      rw [← hph]; exact BitVec.toNat_inj.symm
    simp only [Effects.fireflyTime, fireflyClock, e0, e1, hlt]
    generalize off * (Effects.kPeriodMs - (t - t / Effects.kPeriodMs * Effects.kPeriodMs)) /
      Effects.kPeriodMs = A at *
    generalize off * (t - t / Effects.kPeriodMs * Effects.kPeriodMs) / Effects.kPeriodMs = B at *
    have hA := A.isLt
    have hB := B.isLt
    have ht := t.isLt
    have : t.toNat / 20000 % 3 < 3 := Nat.mod_lt _ (by decide)
    generalize t.toNat / 20000 % 3 = ph at *
    have : ph = 0 ∨ ph = 1 ∨ ph = 2 := by omega
    rcases this with rfl | rfl | rfl
    · simp only [if_true, ← hm1]
      split
      · rw [BitVec.toNat_sub]; omega
      · rw [BitVec.toNat_add]; omega
    · simp
    · simp only [← hm2, show ¬ (2 : Nat) = 0 by decide, show ¬ (2 : Nat) = 1 by decide, if_false]
      split
      · rw [BitVec.toNat_sub]; omega
      · rw [BitVec.toNat_add]; omega
  have hglow : ∀ (off : U32), off.toNat < 512 →
      (BitVec.ofInt 8 ((if (F.sin16 ((Effects.fireflyTime off t * Effects.kSinMultiplier).setWidth
        16)).toInt < 0 then 0 else (F.sin16 ((Effects.fireflyTime off t *
        Effects.kSinMultiplier).setWidth 16)).toInt).tdiv 256)).toNat =
      fireflyGlow F (fireflyClock off.toNat t.toNat) := by
    intro off hoff
    have hc := hclock off hoff
    simp only [fireflyGlow]
    rw [← hc]
    have hx : ((Effects.fireflyTime off t * Effects.kSinMultiplier).setWidth 16 : U16) =
        BitVec.ofNat 16 (64 * (((Effects.fireflyTime off t).toNat : Int) % 1024).toNat) := by
      apply BitVec.eq_of_toNat_eq
      rw [BitVec.toNat_setWidth, BitVec.toNat_mul, BitVec.toNat_ofNat,
        show Effects.kSinMultiplier.toNat = 64 from rfl]
      omega
    rw [hx]
    have hph : ((((Effects.fireflyTime off t).toNat : Int)) % 1024).toNat < 1024 := by omega
    generalize ((((Effects.fireflyTime off t).toNat : Int)) % 1024).toNat = ph at *
    have hs := hF.sin16_sign (BitVec.ofNat 16 (64 * ph))
    rw [BitVec.toNat_ofNat, Nat.mod_eq_of_lt (by omega)] at hs
    generalize F.sin16 (BitVec.ofNat 16 (64 * ph)) = s at *
    have hsl := s.isLt
    by_cases hp : ph < 512
    · have h0 := hs.1 (by omega)
      rw [if_neg (by omega), if_pos hp]
      have : s.toInt = s.toNat := by
        rw [BitVec.toInt_eq_toNat_cond] at *; omega
      rw [this, show ((s.toNat : Int).tdiv 256) = ((s.toNat / 256 : Nat) : Int) from rfl]
      show (BitVec.ofNat 8 _).toNat = _
      rw [BitVec.toNat_ofNat]
      omega
    · have h0 := hs.2 (by omega)
      rw [if_neg hp]
      have : (if s.toInt < 0 then 0 else s.toInt) = 0 := by split <;> omega
      rw [this]
      rfl
  by_cases hc : strip.flagEnabled .controller = true
  · obtain ⟨hl2, hl32⟩ := hctl hc
    have hodd : ¬ (strip.flagEnabled .controller = true ∧ led % 2 = 1) := by
      rintro ⟨-, h⟩
      have := congrArg BitVec.toNat h
      rw [BitVec.toNat_umod] at this
      have h1 : led.toNat % 2 = 1 := this
      omega
    have hoff : (((Effects.kBlinkPeriod + 1234) <<< led.toNat) % (Effects.kBlinkPeriod / 2)).toNat =
        2258 * 2 ^ led.toNat % 512 := by
      rw [BitVec.toNat_umod, BitVec.toNat_shiftLeft, Nat.shiftLeft_eq,
        show (Effects.kBlinkPeriod + 1234).toNat = 2258 from rfl,
        show (Effects.kBlinkPeriod / 2).toNat = 512 from rfl]
      omega
    refine ⟨g, _, hg, ?_, (hglow _ (by rw [hoff]; exact Nat.mod_lt _ (by decide))).trans
      (by rw [fireflyOffset, if_pos hc, ← hoff])⟩
    · simp only [Effect.getColour, Effects.firefly, if_neg hodd, if_pos hc,
        if_neg (show ¬ 32 ≤ led.toNat by omega), bind, Except.bind, pure, Except.pure, hpal, hposeq,
        hg, Except.map]
  · have hodd : ¬ (strip.flagEnabled .controller = true ∧ led % 2 = 1) := fun h => hc h.1
    refine ⟨g, _, hg, ?_, (hglow _ ho).trans (by rw [fireflyOffset, if_neg hc])⟩
    · simp only [Effect.getColour, Effects.firefly, if_neg hodd, if_neg hc, bind, Except.bind,
        pure, Except.pure, hpal, hposeq, hg, Except.map]

/-- C106: on the controller the odd LEDs are black. -/
theorem firefly_controller_odd (F : FastLED) (plat : Platform) (o : U32) (led : U8) (t : U32)
    (strip : Strip) (pkt : Packet) (rng : U16) (hctl : strip.flagEnabled .controller = true)
    (hodd : led.toNat % 2 = 1) :
    (Effect.firefly o).getColour F plat led t strip pkt rng = .ok (.rgb ⟨0, 0, 0⟩, rng) := by
  have h : led % 2 = 1 := by
    apply BitVec.eq_of_toNat_eq
    rw [BitVec.toNat_umod]
    exact hodd
  simp only [Effect.getColour, Effects.firefly, if_pos (And.intro hctl h)]
  rfl

/-- Drifting apart: at 50.384 s a firefly of offset 100 is 51 ms behind and glows. -/
example : fireflyClock (fireflyOffset (Strip.new 60 []) 100 20) 50384 = 50333 ∧
    fireflyGlow FastLED.reference 50333 = 104 ∧ fireflyGlow FastLED.reference 50715 = 0 ∧
    fireflyOffset (Strip.new 30 [.controller]) 100 4 = 288 := by
  decide +kernel

/-! ## C107: bumps -/

theorem thresholdSin_bump {F : FastLED} (hF : F.Lawful) (x : U16) (phase : Nat)
    (hph : phase < 256) (hx : x = BitVec.ofNat 16 (256 * phase)) :
    (getThresholdSin F x 0).toNat = bump F phase := by
  subst hx
  unfold getThresholdSin bump
  have hs := hF.sin16_sign (BitVec.ofNat 16 (256 * phase))
  rw [BitVec.toNat_ofNat, Nat.mod_eq_of_lt (by omega)] at hs
  generalize F.sin16 (BitVec.ofNat 16 (256 * phase)) = s at *
  have hsl := s.isLt
  simp only [show ((0 : U8).toNat : Int) = 0 from rfl]
  by_cases hp : phase < 128
  · have h0 := hs.1 (by omega)
    have : s.toInt = s.toNat := by
      rw [BitVec.toInt_eq_toNat_cond] at *; omega
    rw [this, if_pos hp, show ((s.toNat : Int).tdiv 128) = ((s.toNat / 128 : Nat) : Int) from rfl,
      if_neg (by omega),
      show ((((s.toNat / 128 : Nat) : Int) - 0) * 256).tdiv (256 - 0) = ((s.toNat / 128 : Nat) : Int)
        by rw [Int.sub_zero, Int.sub_zero, Int.mul_tdiv_cancel _ (by decide)]]
    show (BitVec.ofNat 8 _).toNat = _
    rw [BitVec.toNat_ofNat]
    rw [BitVec.toInt_eq_toNat_cond] at this
    omega
  · have h0 := hs.2 (by omega)
    rw [if_neg hp]
    have h1 : s.toInt.tdiv 128 ≤ 0 := by
      have : (-(-s.toInt)).tdiv 128 = -((-s.toInt).tdiv 128) := Int.neg_tdiv ..
      rw [Int.neg_neg] at this
      rw [this]
      have : 0 ≤ (-s.toInt).tdiv 128 := Int.tdiv_nonneg (by omega) (by decide)
      omega
    split
    · rfl
    · have : s.toInt.tdiv 128 = 0 := by omega
      rw [this]; rfl

theorem bump_offset {strip : Strip} {led l c : U8} (step : U8)
    (hl : l.toNat = coordinate strip led.toNat) (hc : c.toNat = coordinates strip)
    (hlc : l.toNat < c.toNat) :
    ∃ off : U8, off.toNat = bumpOffset strip step.toNat led.toNat ∧
      (strip.flagEnabled .circular = true →
        ∃ q, divNat (l.toNat * 255) c.toNat = .ok q ∧ BitVec.ofNat 8 q = off) ∧
      (¬ strip.flagEnabled .circular = true → l * step = off) := by
  unfold bumpOffset
  by_cases hci : strip.flagEnabled .circular = true
  · have hlt : l.toNat * 255 / c.toNat < 256 := by
      apply Nat.div_lt_of_lt_mul
      have : l.toNat * 255 ≤ c.toNat * 255 := Nat.mul_le_mul_right _ (by omega)
      omega
    refine ⟨BitVec.ofNat 8 (l.toNat * 255 / c.toNat), ?_, fun _ => ⟨_, ?_, rfl⟩,
      fun h => absurd hci h⟩
    · rw [if_pos hci, ← hl, ← hc, BitVec.toNat_ofNat]
      exact Nat.mod_eq_of_lt hlt
    · rw [divNat, if_neg (by omega)]
  · refine ⟨l * step, ?_, fun h => absurd h hci, fun _ => rfl⟩
    rw [if_neg hci, BitVec.toNat_mul, hl]

/-- C107: rainbow bumps.  The colour at an LED is that of the gradient moving by 1/256 of the
palette every 10 ms; the value is that of a bump moving the other way by 1/256 of its length
every 16 ms, dark for half of the time. -/
theorem rainbow_bumps_pattern {F : FastLED} (hF : F.Lawful) (plat : Platform) (led : U8) (t : U32)
    (strip : Strip) (pkt : Packet) (rng : U16) (hled : led < strip.count)
    (hpkt : NamesPalette plat pkt) {p : Palette} (hp : palettes[pkt.data[2].toNat]? = some p)
    (pos : U16)
    (hpos : pos.toNat = 256 * ((t.toNat / 10 + bumpOffset strip 8 led.toNat) % 256)) :
    ∃ g v, p.getGradient F pos = .ok g ∧
      Effect.rainbowBumps.getColour F plat led t strip pkt rng =
        .ok (.hsv { g with v := v }, rng) ∧
      v.toNat = bump F (((3 * bumpOffset strip 8 led.toNat : Int) - t.toNat / 16) % 256).toNat := by
  have hpal := paletteOf_named hpkt hp
  have hmem := List.mem_of_getElem? hp
  obtain ⟨g, hg⟩ := getGradient_ok hmem F pos true
  obtain ⟨l, c, hm, hl, hc, hc0, hlc⟩ := mirrored_coordinate (strip := strip) (led := led) hled
  obtain ⟨off, ho, hcirc, hlin⟩ := bump_offset 8 hl hc hlc
  rw [show (8 : U8).toNat = 8 from rfl] at ho
  have hol := off.isLt
  have ht := t.isLt
  have hpe : (((t / 10 + off.setWidth 32) <<< 8).setWidth 16 : U16) = pos := by
    apply BitVec.eq_of_toNat_eq
    rw [BitVec.toNat_setWidth, BitVec.toNat_shiftLeft, Nat.shiftLeft_eq, BitVec.toNat_add,
      div_toNat, BitVec.toNat_setWidth, hpos, ← ho, show (10 : U32).toNat = 10 from rfl]
    omega
  refine ⟨g, getThresholdSin F
      (((-(t / 16 - BitVec.ofNat 32 (off.toNat * 3))) <<< 8).setWidth 16) 0, hg, ?_, ?_⟩
  · by_cases hci : strip.flagEnabled .circular = true
    · obtain ⟨q, hq, rfl⟩ := hcirc hci
      simp only [Effect.getColour, Effects.rainbowBumps, hpal, hm, bind, Except.bind, pure,
        Except.pure, if_pos hci, hq, hpe, hg, Except.map]
    · have hlin := hlin hci
      subst hlin
      simp only [Effect.getColour, Effects.rainbowBumps, hpal, hm, bind, Except.bind, pure,
        Except.pure, if_neg hci, hpe, hg, Except.map]
  · apply thresholdSin_bump hF _ _ (by omega)
    apply BitVec.eq_of_toNat_eq
    rw [BitVec.toNat_setWidth, BitVec.toNat_shiftLeft, Nat.shiftLeft_eq, BitVec.toNat_neg,
      BitVec.toNat_sub, div_toNat, BitVec.toNat_ofNat, BitVec.toNat_ofNat, ← ho,
      show (16 : U32).toNat = 16 from rfl]
    omega

/-- C107: contrast bumps.  A bump moves along the strip by 1/256 of its length every 16 ms;
outside it LEDs show the palette's gradient (one turn in 4096 ms) at value 64, inside it the
gradient a quarter of a turn ahead, at a value of 96 and more. -/
theorem contrast_bumps_pattern {F : FastLED} (hF : F.Lawful) (plat : Platform) (led : U8) (t : U32)
    (strip : Strip) (pkt : Packet) (rng : U16) (hled : led < strip.count)
    (hpkt : NamesPalette plat pkt) {p : Palette} (hp : palettes[pkt.data[2].toNat]? = some p) :
    let height := bump F ((-(t.toNat / 16 + bumpOffset strip 24 led.toNat : Int)) % 256).toNat
    ∀ pos : U16, pos.toNat = (16 * t.toNat + if height = 0 then 0 else 16384) % 65536 →
    ∃ g v, p.getGradient F pos = .ok g ∧
      Effect.contrastBumps.getColour F plat led t strip pkt rng =
        .ok (.hsv { g with v := v }, rng) ∧
      v.toNat = if height = 0 then 64 else 96 + height / 2 := by
  intro height pos hpos
  have hpal := paletteOf_named hpkt hp
  have hmem := List.mem_of_getElem? hp
  obtain ⟨g, hg⟩ := getGradient_ok hmem F pos true
  obtain ⟨l, c, hm, hl, hc, hc0, hlc⟩ := mirrored_coordinate (strip := strip) (led := led) hled
  obtain ⟨off, ho, hcirc, hlin⟩ := bump_offset 24 hl hc hlc
  have hol := off.isLt
  have ht := t.isLt
  have hsin : (getThresholdSin F (((-(t / 16 + off.setWidth 32)) <<< 8).setWidth 16) 0).toNat =
      height := by
    apply thresholdSin_bump hF _ _ (by omega)
    apply BitVec.eq_of_toNat_eq
    rw [BitVec.toNat_setWidth, BitVec.toNat_shiftLeft, Nat.shiftLeft_eq, BitVec.toNat_neg,
      BitVec.toNat_add, div_toNat, BitVec.toNat_setWidth, BitVec.toNat_ofNat,
      show bumpOffset strip 24 led.toNat = off.toNat from ho.symm,
      show (16 : U32).toNat = 16 from rfl]
    omega
  generalize height = h at *
  generalize hsg : getThresholdSin F (((-(t / 16 + off.setWidth 32)) <<< 8).setWidth 16) 0 = s at *
  have hsl := s.isLt
  have h16 : ((t * 16).setWidth 16 : U16).toNat = 16 * t.toNat % 65536 := by
    rw [BitVec.toNat_setWidth, BitVec.toNat_mul, show (16 : U32).toNat = 16 from rfl]; omega
  by_cases h0 : s = 0
  · have hh : h = 0 := by rw [← hsin, h0]; rfl
    rw [if_pos hh] at hpos ⊢
    have hpe : ((t * 16).setWidth 16 : U16) = pos := by
      apply BitVec.eq_of_toNat_eq; rw [h16, hpos, Nat.add_zero]
    refine ⟨g, 64, hg, ?_, rfl⟩
    by_cases hci : strip.flagEnabled .circular = true
    · obtain ⟨q, hq, rfl⟩ := hcirc hci
      simp only [Effect.getColour, Effects.contrastBumps, hpal, hm, bind, Except.bind, pure,
        Except.pure, if_pos hci, hq, hsg, if_pos h0, hpe, hg, Except.map]
    · have hlin := hlin hci
      subst hlin
      simp only [Effect.getColour, Effects.contrastBumps, hpal, hm, bind, Except.bind, pure,
        Except.pure, if_neg hci, hsg, if_pos h0, hpe, hg, Except.map]
  · have hh : ¬ h = 0 := by
      rw [← hsin]; exact fun e => h0 (BitVec.eq_of_toNat_eq e)
    rw [if_neg hh] at hpos ⊢
    have hpe : ((t * 16).setWidth 16 + 0x4000 : U16) = pos := by
      apply BitVec.eq_of_toNat_eq
      rw [BitVec.toNat_add, h16, hpos, show (0x4000 : U16).toNat = 16384 from rfl]
      omega
    refine ⟨g, F.qadd8 (s / 2) 96, hg, ?_, ?_⟩
    · by_cases hci : strip.flagEnabled .circular = true
      · obtain ⟨q, hq, rfl⟩ := hcirc hci
        simp only [Effect.getColour, Effects.contrastBumps, hpal, hm, bind, Except.bind, pure,
          Except.pure, if_pos hci, hq, hsg, if_neg h0, hpe, hg, Except.map]
      · have hlin := hlin hci
        subst hlin
        simp only [Effect.getColour, Effects.contrastBumps, hpal, hm, bind, Except.bind, pure,
          Except.pure, if_neg hci, hsg, if_neg h0, hpe, hg, Except.map]
    · rw [hF.qadd8, BitVec.toNat_udiv, hsin, show (2 : U8).toNat = 2 from rfl,
        show (96 : U8).toNat = 96 from rfl]
      omega

example : bump FastLED.reference ((3 * bumpOffset (Strip.new 60 []) 8 3 - 500 / 16 : Int) %
      256).toNat = 0xd7 ∧
    bump FastLED.reference ((-(500 / 16 + bumpOffset (Strip.new 60 []) 24 3 : Int)) % 256).toNat = 0 ∧
    bump FastLED.reference ((-(500 / 16 + bumpOffset (Strip.new 60 []) 24 6 : Int)) % 256).toNat =
      0xe8 := by
  decide +kernel

/-! ## C108: the police lights -/

theorem and_bit {x : U32} (k : Nat) (hk : k < 32) :
    ((x &&& BitVec.ofNat 32 (2 ^ k)) == 0) = decide (x.toNat % 2 ^ (k + 1) < 2 ^ k) := by
  have hlt : 2 ^ k < 2 ^ 32 := Nat.pow_lt_pow_right (by decide) hk
  rw [Bool.eq_iff_iff, beq_iff_eq, decide_eq_true_iff, ← BitVec.toNat_inj, BitVec.toNat_and,
    BitVec.toNat_ofNat, Nat.mod_eq_of_lt hlt]
  have hz : x.toNat &&& 2 ^ k = (0 : U32).toNat ↔ ¬ x.toNat.testBit k = true := by
    constructor
    · intro h
      have := congrArg (Nat.testBit · k) h
      simp only [Nat.testBit_and, Nat.testBit_two_pow_self, Bool.and_true,
        show (0 : U32).toNat = 0 from rfl, Nat.zero_testBit] at this
      rw [this]; decide
    · intro h
      apply Nat.eq_of_testBit_eq
      intro i
      rw [Nat.testBit_and, Nat.testBit_two_pow, show (0 : U32).toNat = 0 from rfl,
        Nat.zero_testBit]
      by_cases hi : k = i
      · subst hi; simpa using h
      · simp [hi]
  rw [hz, Nat.testBit_eq_decide_div_mod_eq]
  have e : x.toNat / 2 ^ k % 2 = x.toNat % (2 ^ k * 2) / 2 ^ k := by
    rw [Nat.mod_mul_right_div_self]
  rw [e, Nat.pow_succ]
  have hpos : 0 < 2 ^ k := Nat.two_pow_pos k
  have hm : x.toNat % (2 ^ k * 2) < 2 ^ k * 2 := Nat.mod_lt _ (by omega)
  generalize x.toNat % (2 ^ k * 2) = y at *
  by_cases hy : y < 2 ^ k
  · have : y / 2 ^ k = 0 := Nat.div_eq_of_lt hy
    simp [this, hy]
  · have : y / 2 ^ k = 1 := Nat.div_eq_of_lt_le (by omega) (by omega)
    simp [this, hy]

/-- C108: what the police effect shows, on every strip. -/
theorem police_pattern (F : FastLED) (plat : Platform) (led : U8) (t : U32) (strip : Strip)
    (pkt : Packet) (rng : U16) (hled : led < strip.count) :
    Effect.police.getColour F plat led t strip pkt rng =
      .ok (.rgb (siren strip led.toNat t.toNat).colour, rng) := by
  obtain ⟨l, c, hm, hl, hc, hc0, hlc⟩ := mirrored_coordinate (strip := strip) (led := led) hled
  have c15 : ((t / 15) &&& 0b100000 == 0) = sirenCycle 15 t.toNat := by
    rw [show (0b100000 : U32) = BitVec.ofNat 32 (2 ^ 5) from rfl, and_bit 5 (by decide), div_toNat]
    rfl
  have c14 : ((t / 14) &&& 0b100000 == 0) = sirenCycle 14 t.toNat := by
    rw [show (0b100000 : U32) = BitVec.ofNat 32 (2 ^ 5) from rfl, and_bit 5 (by decide), div_toNat]
    rfl
  have f15 : ((t / 15) &&& 0b100 == 0) = sirenFlash 15 t.toNat := by
    rw [show (0b100 : U32) = BitVec.ofNat 32 (2 ^ 2) from rfl, and_bit 2 (by decide), div_toNat]
    rfl
  have f14 : ((t / 14) &&& 0b100 == 0) = sirenFlash 14 t.toNat := by
    rw [show (0b100 : U32) = BitVec.ofNat 32 (2 ^ 2) from rfl, and_bit 2 (by decide), div_toNat]
    rfl
  have hph : ((t / 100) % 10).toNat = t.toNat / 100 % 10 := by
    rw [BitVec.toNat_umod, div_toNat]; rfl
  have p4 : ((t / 100) % 10 < 4) ↔ t.toNat / 100 % 10 < 4 := by
    rw [BitVec.lt_def, hph]; rfl
  have p2 : ((t / 100) % 10 % 2 = 0) ↔ t.toNat / 100 % 10 % 2 = 0 := by
    rw [← BitVec.toNat_inj, BitVec.toNat_umod, hph]; rfl
  simp only [Effect.getColour, Effects.police, c15, c14, f15, f14, p4, p2, hm, bind, Except.bind,
    pure, Except.pure, siren]
  generalize sirenCycle 15 t.toNat = C15
  generalize sirenCycle 14 t.toNat = C14
  generalize sirenFlash 15 t.toNat = F15
  generalize sirenFlash 14 t.toNat = F14
  generalize t.toNat / 100 % 10 = ph
  by_cases h1 : strip.flagEnabled .controller = true
  · simp only [if_pos h1]
    have e : strip.count.toNat * 2 / 3 = 2 * strip.count.toNat / 3 := by rw [Nat.mul_comm]
    rw [e]
    by_cases hodd : ph % 2 = 1
    · have : ¬ ph % 2 = 0 := by omega
      simp only [if_pos hodd, if_neg this]
      repeat' split
      all_goals rfl
    · have : ph % 2 = 0 := by omega
      simp only [if_neg hodd, if_pos this]
      repeat' split
      all_goals rfl
  simp only [if_neg h1]
  by_cases h2 : strip.flagEnabled .tiny = true
  · by_cases h3 : strip.flagEnabled .mirrored = true
    · simp only [h2, h3, and_self, if_true]
      split
      · cases C15 <;> cases F15 <;> rfl
      · cases C15 <;> cases F14 <;> rfl
    · simp only [h2, h3, and_false, if_false, if_true, Bool.false_eq_true]
      cases C15 <;> cases F15 <;> rfl
  · simp only [h2, false_and, if_false, Bool.false_eq_true, hl, hc]
    generalize coordinate strip led.toNat = x
    generalize coordinates strip = y
    have e1 : ((x : Int) < 14 / 2) ↔ x < 7 := by omega
    have e2 : ((x : Int) < 14) ↔ x < 14 := by omega
    have e3 : ((y : Int) - 14 / 2 < x) ↔ y < x + 7 := by omega
    have e4 : ((y : Int) - 14 < x) ↔ y < x + 14 := by omega
    simp only [e1, e2, e3, e4]
    cases F15 <;> cases F14 <;> cases C15 <;> cases C14 <;>
      by_cases a : x < 7 <;> by_cases b : x < 14 <;> by_cases d : y < x + 7 <;>
      by_cases f : y < x + 14 <;>
      first
      | omega
      | (simp [a, b, d, f, sirenHalf, Siren.colour, Colour.black, CRGB.black, Except.map])

/-- Red at the beginning and blue at the end of a strip, then the other halves. -/
example : siren (Strip.new 60 []) 0 30 = .red ∧ siren (Strip.new 60 []) 59 30 = .blue ∧
    siren (Strip.new 60 []) 7 30 = .off ∧ siren (Strip.new 60 []) 7 500 = .red ∧
    siren (Strip.new 60 []) 0 500 = .off ∧ siren (Strip.new 60 []) 47 500 = .blue ∧
    siren (Strip.new 60 []) 30 30 = .off := by
  decide

/-! ## C109: the colour cycle -/

/-- C109: all LEDs of all strips show the same: with two or more colours the gradient, once
through the palette in 4096 ms, halved unless the strip is bright. -/
theorem colour_cycle_gradient (F : FastLED) (plat : Platform) (led : U8) (t : U32) (strip : Strip)
    (pkt : Packet) (rng : U16) (hpkt : NamesPalette plat pkt) {p : Palette}
    (hp : palettes[pkt.data[2].toNat]? = some p) (h2 : 2 ≤ p.length) (pos : U16)
    (hpos : pos.toNat = 256 * (t.toNat / 16 % 256)) :
    ∃ g, p.getGradient F pos = .ok g ∧
      Effect.colorCycle.getColour F plat led t strip pkt rng =
        .ok (.hsv { g with v := if strip.flagEnabled .bright then g.v else g.v / 2 }, rng) := by
  have hpal := paletteOf_named hpkt hp
  have hmem := List.mem_of_getElem? hp
  have hsm := palettes_small p hmem
  obtain ⟨g, hg⟩ := getGradient_ok hmem F pos true
  refine ⟨g, hg, ?_⟩
  have hsize : ¬ p.size < 2 := by
    rw [BitVec.lt_def, Palette.size, BitVec.toNat_ofNat, show (2 : U8).toNat = 2 from rfl]; omega
  have h : (((t / 16) <<< 8).setWidth 16 : U16) = pos := by
    apply BitVec.eq_of_toNat_eq
    have := t.isLt
    rw [BitVec.toNat_setWidth, BitVec.toNat_shiftLeft, Nat.shiftLeft_eq, div_toNat, hpos,
      show (16 : U32).toNat = 16 from rfl]
    omega
  by_cases hb : strip.flagEnabled .bright = true
  · simp only [Effect.getColour, Effects.colorCycle, hpal, bind, Except.bind, if_neg hsize, h, hg,
      hb, pure, Except.pure, Except.map, not_true_eq_false, if_false, if_true]
  · simp only [Effect.getColour, Effects.colorCycle, hpal, bind, Except.bind, if_neg hsize, h, hg,
      hb, pure, Except.pure, Except.map, not_false_eq_true, if_true, Bool.false_eq_true, if_false]

/-- C109: with one colour that colour, its value pulsing with a wave of 4096 ms, limited to two
thirds unless the strip is bright. -/
theorem colour_cycle_pulse (F : FastLED) (plat : Platform) (led : U8) (t : U32) (strip : Strip)
    (pkt : Packet) (rng : U16) (hpkt : NamesPalette plat pkt) {c : CHSV}
    (hp : palettes[pkt.data[2].toNat]? = some [c]) :
    ∃ v, Effect.colorCycle.getColour F plat led t strip pkt rng = .ok (.hsv { c with v := v }, rng) ∧
      v.toNat = let wave := (F.cubicwave8 (BitVec.ofNat 8 (t.toNat / 16 % 256))).toNat
        if strip.flagEnabled .bright then wave else wave * 2 / 3 := by
  have hpal := paletteOf_named hpkt hp
  have h : ((t / 16).setWidth 8 : U8) = BitVec.ofNat 8 (t.toNat / 16 % 256) := by
    apply BitVec.eq_of_toNat_eq
    rw [BitVec.toNat_setWidth, BitVec.toNat_ofNat, div_toNat, show (16 : U32).toNat = 16 from rfl]
    omega
  have hsize : Palette.size [c] < 2 := by show (1 : U8) < 2; decide
  have hg : Palette.getColor [c] 0 = .ok c := rfl
  have hw := (F.cubicwave8 (BitVec.ofNat 8 (t.toNat / 16 % 256))).isLt
  by_cases hb : strip.flagEnabled .bright = true
  · refine ⟨F.cubicwave8 (BitVec.ofNat 8 (t.toNat / 16 % 256)), ?_, ?_⟩
    · simp only [Effect.getColour, Effects.colorCycle, hpal, bind, Except.bind, if_pos hsize, h, hg,
        hb, pure, Except.pure, Except.map, if_true]
    · simp only [if_pos hb]
  · refine ⟨BitVec.ofNat 8 ((F.cubicwave8 (BitVec.ofNat 8 (t.toNat / 16 % 256))).toNat * 2 / 3),
      ?_, ?_⟩
    · simp only [Effect.getColour, Effects.colorCycle, hpal, bind, Except.bind, if_pos hsize, h, hg,
        hb, pure, Except.pure, Except.map, Bool.false_eq_true, if_false]
    · simp only [if_neg hb, BitVec.toNat_ofNat]
      omega

example : palettes[(4 : Nat)]? = some [⟨128, 255, 255⟩] ∧
    (FastLED.reference.cubicwave8 (BitVec.ofNat 8 (1024 / 16 % 256))).toNat = 128 := by
  decide +kernel

end Firefly.Props
