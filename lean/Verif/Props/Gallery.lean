import Verif.Spec.Gallery
import Verif.Props.Themes
import Verif.Lemmas.FastLED

/-! # The palette display and the shipped devices (C150, C151) -/

namespace Firefly.Props
open Spec

/-- The gradient depends on FastLED only by the interpolation, whose result is laid down. -/
theorem gradient_reference {F : FastLED} (hF : F.Lawful) (p : Palette) (pos : U16) (wrap : Bool) :
    p.getGradient F pos wrap = p.getGradient FastLED.reference pos wrap := by
  have e : F.lerp16by16 = FastLED.reference.lerp16by16 := by
    funext a b f
    apply BitVec.eq_of_toNat_eq
    rw [hF.lerp16by16, FastLED.reference_lawful.lerp16by16]
  unfold Palette.getGradient Palette.lerpHue
  rw [e]

/-- A colour of the model is the one of a table. -/
def isHsv (c : CHSV) (x : Hsv) : Bool := c.h.toNat == x.1 && c.s.toNat == x.2.1 && c.v.toNat == x.2.2

theorem stations_exact : (List.range 22).all (fun k =>
    match palettes[k]?, paletteColours[k]? with
    | some p, some t => p.length == t.length && decide (1 ≤ p.length ∧ p.length ≤ 6) &&
      (List.range p.length).all fun i =>
        match (p.getGradient FastLED.reference (BitVec.ofNat 16 (i * 65536 / p.length))).toOption,
          t[i]? with
        | some c, some x => isHsv c x
        | _, _ => false
    | _, _ => false) = true := by decide +kernel

/-- C150: the palette display shows the colours of the palette in their order at equal distances: if
the number of LEDs of the strip is a multiple `m` of the number of colours, LED `i * m` always shows
the `i`-th colour, at half its brightness unless the strip is bright. -/
theorem palette_gallery {F : FastLED} (hF : F.Lawful) {plat : Platform} {pkt : Packet}
    (hn : NamesPalette plat pkt) {t : List Hsv}
    (ht : paletteColours[pkt.data[2].toNat]? = some t) {strip : Strip} {m : Nat} (hm : 0 < m)
    (hc : strip.count.toNat = m * t.length) {i : Nat} {x : Hsv} (hx : t[i]? = some x) (time : U32)
    (rng : U16) :
    Effect.displayColorPalette.getRGB F plat (BitVec.ofNat 8 (i * m)) time strip pkt rng =
      .ok (F.hsv2rgb ⟨BitVec.ofNat 8 x.1, BitVec.ofNat 8 x.2.1,
        BitVec.ofNat 8 (if strip.flagEnabled .bright then x.2.2 else x.2.2 / 2)⟩, rng) := by
  have hk : pkt.data[2].toNat < 22 := hn.2
  obtain ⟨p, hp⟩ : ∃ p, palettes[pkt.data[2].toNat]? = some p :=
    ⟨_, List.getElem?_eq_getElem (by rw [palettes_length]; exact hk)⟩
  have h := stations_exact
  rw [List.all_eq_true] at h
  have h := h _ (List.mem_range.2 hk)
  rw [hp, ht] at h
  simp only [Bool.and_eq_true, beq_iff_eq, decide_eq_true_eq, List.all_eq_true,
    List.mem_range] at h
  obtain ⟨⟨hl, h1, h6⟩, h⟩ := h
  have hi : i < t.length := (List.getElem?_eq_some_iff.1 hx).1
  have h := h i (by omega)
  rw [hx] at h
  have hct := strip.count.isLt
  have him : i * m < m * t.length := by
    rw [Nat.mul_comm m]; exact Nat.mul_lt_mul_of_pos_right hi hm
  have hled : (BitVec.ofNat 8 (i * m)).toNat = i * m := by
    rw [BitVec.toNat_ofNat, Nat.mod_eq_of_lt (by omega)]
  cases e : p.getGradient FastLED.reference (BitVec.ofNat 16 (i * 65536 / p.length)) with
  | error f => rw [e] at h; cases h
  | ok c =>
    rw [e] at h
    have h : isHsv c x = true := h
    unfold isHsv at h
    simp only [Bool.and_eq_true, beq_iff_eq] at h
    have hpos : i * m * 65536 / strip.count.toNat = i * 65536 / p.length := by
      rw [hc, hl, Nat.mul_right_comm i m, Nat.mul_comm (i * 65536) m, Nat.mul_div_mul_left _ _ hm]
    have hle : p.length ≤ strip.count.toNat := by
      rw [hc, hl]; exact Nat.le_mul_of_pos_left _ hm
    have hsize : ¬ (strip.count < p.size ∧ p.size ≤ 4) := by
      rintro ⟨h', -⟩
      rw [BitVec.lt_def] at h'
      unfold Palette.size at h'
      rw [BitVec.toNat_ofNat, Nat.mod_eq_of_lt (by omega)] at h'
      omega
    have hdiv : divNat (i * m * 65536) strip.count.toNat = .ok (i * 65536 / p.length) := by
      unfold divNat
      rw [if_neg (by omega), hpos]
    have hcol : Effects.displayColorPalette F plat (BitVec.ofNat 8 (i * m)) time strip pkt =
        .ok (.hsv ⟨BitVec.ofNat 8 x.1, BitVec.ofNat 8 x.2.1,
        BitVec.ofNat 8 (if strip.flagEnabled .bright then x.2.2 else x.2.2 / 2)⟩) := by
      have e1 : c.h = BitVec.ofNat 8 x.1 := by rw [← h.1.1, BitVec.ofNat_toNat]; simp
      have e2 : c.s = BitVec.ofNat 8 x.2.1 := by rw [← h.1.2, BitVec.ofNat_toNat]; simp
      have e3 : c.v = BitVec.ofNat 8 x.2.2 := by rw [← h.2, BitVec.ofNat_toNat]; simp
      have e4 : c.v / 2 = BitVec.ofNat 8 (x.2.2 / 2) := by
        apply BitVec.eq_of_toNat_eq
        have := c.v.isLt
        rw [BitVec.toNat_udiv, BitVec.toNat_ofNat, ← h.2, Nat.mod_eq_of_lt (by omega)]
        rfl
      unfold Effects.displayColorPalette
      simp only [paletteOf_named hn hp, bind, Except.bind, pure, Except.pure, if_neg hsize, hled,
        hdiv, gradient_reference hF, e]
      by_cases hb : strip.flagEnabled .bright = true
      · rw [if_neg (by simp [hb]), if_pos hb, ← e1, ← e2, ← e3]
      · rw [if_pos hb, if_neg hb, e4, e1, e2]
    have e' : Effect.displayColorPalette.getRGB F plat (BitVec.ofNat 8 (i * m)) time strip pkt rng =
        ((Effects.displayColorPalette F plat (BitVec.ofNat 8 (i * m)) time strip pkt).map
          (·, rng)).map fun r => (r.1.toRGB F, r.2) := rfl
    rw [e', hcol]
    rfl

/-- A concrete case: the jazz cup palette, number 19, on a bright strip of thirty LEDs: LED 20 is
white. -/
example : NamesPalette .arduino ⟨5, .setEffect, 3, (Vector.replicate 58 19)⟩ ∧
    paletteColours[19]? = some [full 132, full purple, (red, 0, 200)] ∧
    Effect.displayColorPalette.getRGB FastLED.reference .arduino 20 77777 (Strip.new 30 [.bright])
      ⟨5, .setEffect, 3, (Vector.replicate 58 19)⟩ 0 = .ok (⟨200, 200, 200⟩, 0) := by
  refine ⟨⟨by decide, by decide⟩, by decide, by decide +kernel⟩

/-- All flags, in the order of their declaration. -/
def allFlags : List StripFlag := [.tiny, .bright, .circular, .mirrored, .reversed, .controller, .dim, .off]

/-- C151: the shipped devices are those of the table: the same names in the same order, and each
device has the strips listed, in this order, with as many LEDs as listed and with exactly those flags
enabled that are listed. -/
theorem shipped_devices :
    Devices.catalogue.map (·.1) = shipped.map (·.1) ∧
    ∀ (k : Nat) name d, Devices.catalogue[k]? = some (name, d) →
      ∃ ss, shipped[k]? = some (name, ss) ∧ d.strips.length = ss.length ∧
        ∀ (j : Nat) strip, d.strips[j]? = some strip → ∃ count flags,
          ss[j]? = some (count, flags) ∧ strip.count.toNat = count ∧
            ∀ f, strip.flagEnabled f = true ↔ f ∈ flags := by
  refine ⟨by decide, fun k name d h => ?_⟩
  have hk : k < 21 := (List.getElem?_eq_some_iff.1 h).1
  have key : (List.range 21).all (fun k =>
      match Devices.catalogue[k]?, shipped[k]? with
      | some (n, d), some (n', ss) => n == n' && d.strips.length == ss.length &&
        (List.range d.strips.length).all fun j =>
          match d.strips[j]?, ss[j]? with
          | some s, some (c, fs) => s.count.toNat == c &&
            allFlags.all fun f => s.flagEnabled f == decide (f ∈ fs)
          | _, _ => false
      | _, _ => false) = true := by decide +kernel
  rw [List.all_eq_true] at key
  have key := key k (List.mem_range.2 hk)
  rw [h] at key
  cases hs : shipped[k]? with
  | none => rw [hs] at key; cases key
  | some x =>
    obtain ⟨name', ss⟩ := x
    rw [hs] at key
    simp only [Bool.and_eq_true, beq_iff_eq, List.all_eq_true, List.mem_range] at key
    obtain ⟨⟨hn, hl⟩, key⟩ := key
    refine ⟨ss, by rw [hn], hl, fun j strip hj => ?_⟩
    have := key j (List.getElem?_eq_some_iff.1 hj).1
    rw [hj] at this
    cases hf : ss[j]? with
    | none => rw [hf] at this; cases this
    | some y =>
      obtain ⟨c, fs⟩ := y
      rw [hf] at this
      simp only [Bool.and_eq_true, beq_iff_eq, List.all_eq_true] at this
      refine ⟨c, fs, rfl, this.1, fun f => ?_⟩
      rw [this.2 f (by cases f <;> decide), decide_eq_true_eq]

/-- The table has 21 devices; the board runs the scarf, one plain strip of 46 LEDs. -/
example : shipped.length = 21 ∧ ("scarf", [(46, [])]) ∈ shipped := by decide

end Firefly.Props
