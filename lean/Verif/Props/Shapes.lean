import Verif.Spec.Shapes
import Verif.Props.Patterns
import Verif.Lemmas.Bits

/-! # The shapes of the spark, the Rorschach effect and the flames (C113, C114, C122) -/

namespace Firefly.Props
open Firefly Spec

theorem hue_arith {t p : Nat} {rel : Int} (hp : (p : Int) = 256 * ((t + 14 * rel) % 256)) :
    (t + ((rel * 14) % 4294967296).toNat) % 4294967296 * 256 % 4294967296 % 65536 = p := by
  have h1 : ∀ x : Nat, x % 4294967296 * 256 % 4294967296 % 65536 = 256 * (x % 256) := by omega
  have h2 : ((rel * 14) % 4294967296).toNat % 256 = ((14 * rel) % 256).toNat := by
    have h3 : (rel * 14) % 4294967296 % 256 = (14 * rel) % 256 := by
      rw [Int.mul_comm, Int.emod_emod_of_dvd _ (by decide)]
    have h4 : 0 ≤ (rel * 14) % 4294967296 := Int.emod_nonneg _ (by decide)
    generalize (rel * 14) % 4294967296 = y at *
    omega
  rw [h1]
  generalize ((rel * 14) % 4294967296).toNat = y at *
  omega

theorem spark_hue {t : U32} {rel : Int} {pos : U16}
    (hpos : (pos.toNat : Int) = 256 * (((t.toNat / 24 : Nat) + 14 * rel) % 256)) :
    (((t / 24 + BitVec.ofInt 32 (rel * 14)) <<< 8).setWidth 16 : U16) = pos := by
  apply BitVec.eq_of_toNat_eq
  rw [BitVec.toNat_setWidth, BitVec.toNat_shiftLeft, Nat.shiftLeft_eq, BitVec.toNat_add,
    div_toNat, show (24 : U32).toNat = 24 from rfl, BitVec.toNat_ofInt]
  exact hue_arith hpos

theorem spark_position {l c led : U8} {t : U32} {strip : Strip}
    (hl : l.toNat = coordinate strip led.toNat) (hc : c.toNat = coordinates strip)
    (hc0 : 0 < c.toNat)
    (hfit : t.toNat * (coordinates strip + if strip.flagEnabled .circular then 0 else 8) < 2 ^ 32) :
    ∃ rel rev, Effects.sparkPos l c t strip = .ok (rel, rev) ∧
      rel = sparkPlace strip led.toNat t.toNat ∧
      (rev = false ↔ strip.flagEnabled .circular = true ∨
        sparkStep (coordinates strip) t.toNat ≤ coordinates strip + 8) ∧ rel < c.toNat + 9 := by
  have hcl := c.isLt
  have hll := l.isLt
  have ht := t.isLt
  have hcn : c ≠ 0 := by rintro rfl; exact absurd hc0 (by decide)
  by_cases hci : strip.flagEnabled .circular = true
  · simp only [hci, if_true, ← hc, Nat.add_zero] at hfit
    have e : ((t * c.setWidth 32 / 3000 + l.setWidth 32) % c.setWidth 32).toNat =
        (t.toNat * c.toNat / 3000 + l.toNat) % c.toNat := by
      rw [BitVec.toNat_umod, BitVec.toNat_add, div_toNat, BitVec.toNat_mul,
        BitVec.toNat_setWidth, BitVec.toNat_setWidth, show (3000 : U32).toNat = 3000 from rfl,
        Nat.mod_eq_of_lt (a := c.toNat) (by omega), Nat.mod_eq_of_lt (a := l.toNat) (by omega),
        Nat.mod_eq_of_lt hfit]
      rw [Nat.mod_eq_of_lt (a := _ + _) (by omega)]
    refine ⟨_, false, ?_, rfl, by simp [hci], ?_⟩
    · simp only [Effects.sparkPos, sparkPlace, hci, if_true, if_neg hcn, ← hl, ← hc, e]
    · simp only [sparkPlace, hci, if_true, ← hl, ← hc]
      have := Nat.mod_lt (t.toNat * c.toNat / 3000 + l.toNat) hc0
      omega
  · have hci' : strip.flagEnabled .circular = false := by simpa using hci
    simp only [hci', Bool.false_eq_true, if_false, ← hc] at hfit
    have e : (t * BitVec.ofNat 32 (c.toNat + 8) / 3000 %
        BitVec.ofNat 32 ((c.toNat + 8) * 2)).toNat = sparkStep c.toNat t.toNat := by
      rw [BitVec.toNat_umod, div_toNat, BitVec.toNat_mul,
        BitVec.toNat_ofNat, BitVec.toNat_ofNat, show (3000 : U32).toNat = 3000 from rfl,
        Nat.mod_eq_of_lt (a := c.toNat + 8) (by omega),
        Nat.mod_eq_of_lt (a := (c.toNat + 8) * 2) (by omega),
        Nat.mod_eq_of_lt hfit, sparkStep, Nat.mul_comm 2]
    have hlt : sparkStep c.toNat t.toNat < 2 * (c.toNat + 8) := Nat.mod_lt _ (by omega)
    by_cases h : sparkStep c.toNat t.toNat ≤ c.toNat + 8
    · refine ⟨_, false, ?_, rfl, by simp [← hc, h], ?_⟩
      · simp only [Effects.sparkPos, sparkPlace, hci', Bool.false_eq_true, if_false, ← hl, ← hc,
          show Effects.brightnesses.length = 8 from rfl, e]
        rw [if_neg (by omega), if_pos h]
      · simp only [sparkPlace, hci', Bool.false_eq_true, if_false, ← hl, ← hc]
        rw [if_pos h]; omega
    · refine ⟨_, true, ?_, rfl, by simp [← hc, h, hci'], ?_⟩
      · simp only [Effects.sparkPos, sparkPlace, hci', Bool.false_eq_true, if_false, ← hl, ← hc,
          show Effects.brightnesses.length = 8 from rfl, e]
        rw [if_pos (by omega), if_neg h]
        congr 2; omega
      · simp only [sparkPlace, hci', Bool.false_eq_true, if_false, ← hl, ← hc]
        rw [if_neg h]; omega

theorem sparkTail_beyond {i : Nat} (hi : 8 ≤ i) : sparkTail.getD i 0 = 0 := by
  rw [List.getD_eq_getElem?_getD, List.getElem?_eq_none (by simpa [sparkTail] using hi)]; rfl

theorem spark_brightness {count : Nat} {rel : Int} {rev : Bool} (g : CHSV)
    (hr : rel < count + 9) :
    ∃ v : U8, (if rel < 0 then (.ok (.hsv { g with v := 0 }) : Except Fault Colour)
      else if rel < count + (8 : Nat) then
        if rel < (8 : Nat) then
          Except.bind (vecGet Effects.brightnesses (if rev then 8 - rel.toNat - 1 else rel.toNat))
            fun b => .ok (.hsv { g with v := b })
        else .ok (.hsv { g with v := 0 })
      else .ok (.hsv { g with v := 0 })) = .ok (.hsv { g with v := v }) ∧
      v.toNat = if 0 ≤ (if rev = false then rel else 7 - rel) then
        sparkTail.getD (if rev = false then rel else 7 - rel).toNat 0 else 0 := by
  generalize hb : (if rev = false then rel else 7 - rel) = behind
  have hb' : rev = false ∧ behind = rel ∨ rev = true ∧ behind = 7 - rel := by
    cases rev
    · exact .inl ⟨rfl, hb.symm⟩
    · exact .inr ⟨rfl, hb.symm⟩
  have hall : ∀ i < 8, ∃ b, vecGet Effects.brightnesses i = .ok b ∧
      b.toNat = sparkTail.getD i 0 := by decide
  have hdark : rel < 0 ∨ 8 ≤ rel →
      (0 : U8).toNat = if 0 ≤ behind then sparkTail.getD behind.toNat 0 else 0 := by
    intro h
    by_cases h0 : 0 ≤ behind
    · rw [if_pos h0, sparkTail_beyond (by omega)]; rfl
    · rw [if_neg h0]; rfl
  by_cases h0 : rel < 0
  · rw [if_pos h0]
    exact ⟨0, rfl, hdark (.inl h0)⟩
  rw [if_neg h0]
  by_cases h1 : rel < ((8 : Nat) : Int)
  · rw [if_pos (by omega), if_pos h1]
    obtain ⟨b, hb, hb0⟩ := hall behind.toNat (by omega)
    have : (if rev then 8 - rel.toNat - 1 else rel.toNat) = behind.toNat := by
      rcases hb' with ⟨rfl, h⟩ | ⟨rfl, h⟩
      · rw [h]; rfl
      · rw [if_pos rfl]; omega
    rw [this, hb]
    exact ⟨b, rfl, by rw [if_pos (by omega), hb0]⟩
  · rw [if_neg h1]
    split
    · exact ⟨0, rfl, hdark (.inr (by omega))⟩
    · exact ⟨0, rfl, hdark (.inr (by omega))⟩

/-- C113.  The spark: as long as the clock times the number of steps fits 32 bits (17 hours on 60
LEDs), each LED has the value of the spark at its place, in the colour of the palette's gradient,
which moves on by 1/256 every 24 ms and by 14/256 per LED. -/
theorem spark_pattern (F : FastLED) (plat : Platform) (led : U8) (t : U32) (strip : Strip)
    (pkt : Packet) (rng : U16) (hled : led < strip.count) (hpkt : NamesPalette plat pkt)
    {p : Palette} (hp : palettes[pkt.data[2].toNat]? = some p)
    (hfit : t.toNat * (coordinates strip + if strip.flagEnabled .circular then 0 else 8) < 2 ^ 32)
    (pos : U16)
    (hpos : (pos.toNat : Int) =
      256 * (((t.toNat / 24 : Nat) + 14 * sparkPlace strip led.toNat t.toNat) % 256)) :
    ∃ g v, p.getGradient F pos = .ok g ∧
      Effect.spark.getColour F plat led t strip pkt rng = .ok (.hsv { g with v := v }, rng) ∧
      v.toNat = sparkValue strip led.toNat t.toNat := by
  have hpal := paletteOf_named hpkt hp
  have hmem := List.mem_of_getElem? hp
  obtain ⟨g, hg⟩ := getGradient_ok hmem F pos true
  obtain ⟨l, c, hm, hl, hc, hc0, hlc⟩ := mirrored_coordinate (strip := strip) (led := led) hled
  obtain ⟨rel, rev, hs, hrel, hrev, hrb⟩ := spark_position (t := t) hl hc hc0 hfit
  have hpe := spark_hue (t := t) (rel := rel) (hrel ▸ hpos)
  obtain ⟨v, hv, hv'⟩ := spark_brightness (rev := rev) g hrb
  refine ⟨g, v, hg, ?_, ?_⟩
  · simp only [Effect.getColour, Effects.spark, bind, Except.bind, hpal, hm, hs, hpe, hg, pure,
      Except.pure, show Effects.brightnesses.length = 8 from rfl]
    simp only [Except.bind] at hv
    rw [hv]
    rfl
  · rw [hv', sparkValue, hrel]
    simp only [hrev]

/-- The spark of 120 LEDs on its way up after 1.3 s, with the head at 55, and on its way down after
4.7 s: the same LEDs, the other way round. -/
example : [57, 56, 55, 54, 53, 48, 47].map (fun x => sparkValue (Strip.new 120 []) x 1300) =
      [0, 0, 255, 255, 128, 16, 0] ∧
    [57, 56, 55, 54, 53, 50, 49, 48].map (fun x => sparkValue (Strip.new 120 []) x 4700) =
      [0, 16, 24, 32, 48, 255, 255, 0] ∧
    (1300 : U32).toNat * (coordinates (Strip.new 120 []) +
      if (Strip.new 120 []).flagEnabled .circular then 0 else 8) < 2 ^ 32 := by decide +kernel

theorem place_word {T : U32} {τ m : Nat} {z : Int} (hT : T.toNat = τ)
    (hz : z = τ + m) : T + BitVec.ofNat 32 m = BitVec.ofInt 32 z := by
  apply BitVec.eq_of_toNat_eq
  have : z = ((τ + m : Nat) : Int) := by omega
  rw [this, BitVec.ofInt_natCast, BitVec.toNat_add, BitVec.toNat_ofNat, BitVec.toNat_ofNat, hT]
  omega

theorem rorschach_place {o : U16} {t : U32} {strip : Strip} {led : U8} {ledPos : U16}
    (hp : ledPos = BitVec.ofInt 16
      (-(((led.toNat : Int) - (strip.count.toNat / 2 : Nat)).natAbs : Int))) {place : Int × Int}
    (hplace : place =
      rorschachPlace (fromMiddle strip led.toNat) ((t.toNat + o.toNat) % 2 ^ 32)) :
    BitVec.ofNat 32 (ledPos.toNat * 32) + ((t + o.setWidth 32) >>> 3) = BitVec.ofInt 32 place.1 ∧
    ((t + o.setWidth 32) >>> 3) + BitVec.ofNat 32 (ledPos.toNat * 4) = BitVec.ofInt 32 place.2 := by
  have hd : fromMiddle strip led.toNat ≤ 255 := by
    unfold fromMiddle
    have := led.isLt
    have := strip.count.isLt
    omega
  have hlp : ledPos.toNat = if fromMiddle strip led.toNat = 0 then 0
      else 65536 - fromMiddle strip led.toNat := by
    rw [hp, show ((led.toNat : Int) - (strip.count.toNat / 2 : Nat)).natAbs =
      fromMiddle strip led.toNat from rfl, BitVec.toNat_ofInt]
    split <;> omega
  have hτ : ((t + o.setWidth 32) >>> 3).toNat = (t.toNat + o.toNat) % 2 ^ 32 / 8 := by
    rw [BitVec.toNat_ushiftRight, Nat.shiftRight_eq_div_pow, BitVec.toNat_add,
      BitVec.toNat_setWidth, Nat.mod_eq_of_lt (a := o.toNat) (by have := o.isLt; omega)]
  rw [hplace, BitVec.add_comm (BitVec.ofNat 32 _)]
  unfold rorschachPlace
  clear hp hplace
  generalize (t + o.setWidth 32) >>> 3 = T at *
  generalize (t.toNat + o.toNat) % 2 ^ 32 / 8 = τ at *
  generalize fromMiddle strip led.toNat = d at *
  by_cases h0 : d = 0
  · rw [if_pos h0] at hlp ⊢
    exact ⟨place_word hτ (by simp only; omega),
      place_word hτ (by simp only; omega)⟩
  · rw [if_neg h0] at hlp ⊢
    exact ⟨place_word hτ (by simp only; omega),
      place_word hτ (by simp only; omega)⟩

theorem palettes_size : ∀ p ∈ palettes, p.size.toNat = p.length := by decide

theorem palettes_first : ∀ p ∈ palettes,
    p.getColor 0 = match p with | [] => .error .divByZero | b :: _ => .ok b := by decide

/-- C114.  The Rorschach effect shows noise read at the place of the LED: as the value of a
palette of one colour, and otherwise as the position in the palette's gradient from end to end,
at half the value unless the strip is bright. -/
theorem rorschach_pattern (F : FastLED) (plat : Platform) (o : U16) (led : U8) (t : U32)
    (strip : Strip) (pkt : Packet) (rng : U16) (hpkt : NamesPalette plat pkt)
    {p : Palette} (hp : palettes[pkt.data[2].toNat]? = some p) :
    let place := rorschachPlace (fromMiddle strip led.toNat) ((t.toNat + o.toNat) % 2 ^ 32)
    let noise := perlinNoise F (BitVec.ofInt 32 place.1) (BitVec.ofInt 32 place.2) rng
    ∃ c, (Effect.rorschach o).getColour F plat led t strip pkt rng = .ok (.hsv c, noise.2) ∧
      (p.length = 1 → ∃ b, p[0]? = some b ∧ c = { b with v := noise.1 }) ∧
      (1 < p.length → ∀ pos : U16, pos.toNat = 256 * noise.1.toNat →
        ∃ g, p.getGradient F pos false = .ok g ∧ c.h = g.h ∧ c.s = g.s ∧
          c.v.toNat = if strip.flagEnabled .bright then g.v.toNat else g.v.toNat / 2) := by
  intro place noise
  have hpal := paletteOf_named hpkt hp
  have hmem := List.mem_of_getElem? hp
  have hplace := rorschach_place (o := o) (t := t) (strip := strip) (led := led) (place := place)
    rfl rfl
  have hnoise : perlinNoise F (BitVec.ofInt 32 place.1) (BitVec.ofInt 32 place.2) rng = noise := rfl
  obtain ⟨g, hg⟩ := getGradient_ok hmem F (noise.1.setWidth 16 <<< 8) false
  have hsize : p.size.toNat = p.length := palettes_size p hmem
  by_cases h1 : p.size < 2
  · obtain ⟨b, hb, hb'⟩ : ∃ b, p.getColor 0 = .ok b ∧ p[0]? = some b := by
      have hf := palettes_first p hmem
      cases p with
      | nil => exact absurd hmem (by decide)
      | cons b p => exact ⟨b, hf, rfl⟩
    refine ⟨{ b with v := noise.1 }, ?_, fun _ => ⟨b, hb', rfl⟩, fun h => ?_⟩
    · simp only [Effect.getColour, Effects.rorschach, hpal, bind, Except.bind, hplace, hnoise, if_pos h1, hb,
        pure, Except.pure]
    · rw [BitVec.lt_def, hsize] at h1
      rw [show (2 : U8).toNat = 2 from rfl] at h1; omega
  · refine ⟨{ g with v := if strip.flagEnabled .bright then g.v else g.v / 2 }, ?_, fun h => ?_,
      fun _ pos hpos => ⟨g, ?_, rfl, rfl, ?_⟩⟩
    · simp only [Effect.getColour, Effects.rorschach, hpal, bind, Except.bind, hplace, hnoise, if_neg h1, hg,
        pure, Except.pure]
      by_cases hb : strip.flagEnabled .bright = true
      · simp [hb]
      · simp [hb]
    · rw [BitVec.lt_def, hsize] at h1
      exact absurd h1 (by rw [h]; decide)
    · rw [show pos = noise.1.setWidth 16 <<< 8 from ?_]
      · exact hg
      · apply BitVec.eq_of_toNat_eq
        rw [hpos, BitVec.toNat_shiftLeft, Nat.shiftLeft_eq, BitVec.toNat_setWidth]
        have := noise.1.isLt
        omega
    · by_cases hb : strip.flagEnabled .bright = true
      · simp [hb]
      · simp [hb, BitVec.toNat_udiv]

/-- Palette `i`. -/
def shapePacket (i : U8) : Packet :=
  { id := 7, type := .setEffect, len := 3, data := (Vector.replicate 58 0).set 2 i }

/-- C114, the seam: the middle LED is out of the pattern.  After 118 s on 60 LEDs the two on either
side of the middle one are at full value and the middle one at less than a quarter. -/
theorem rorschach_seam :
    ∃ t, [28, 29, 30, 31, 32].map (fun led : Nat =>
      match (Effect.rorschach 0).getColour FastLED.reference .host (BitVec.ofNat 8 led) t
        (Strip.new 60 []) (shapePacket 1) 0 with
      | .ok (.hsv c, _) => some c.v.toNat
      | _ => none) = [some 255, some 255, some 60, some 255, some 255] :=
  ⟨118256, by decide +kernel⟩

/-- The hypotheses are met by palettes of one and of more colours. -/
example : NamesPalette .host (shapePacket 1) ∧ NamesPalette .host (shapePacket 8) ∧
    (palettes[(shapePacket 1).data[2].toNat]?.map (·.length)) = some 1 ∧
    (palettes[(shapePacket 8).data[2].toNat]?.map (·.length)) = some 3 ∧
    fromMiddle (Strip.new 60 []) 28 = 2 ∧ fromMiddle (Strip.new 60 []) 31 = 1 := by
  refine ⟨⟨fun _ => by decide, by decide⟩, ⟨fun _ => by decide, by decide⟩, by decide⟩

/-! ## C122: the flames -/

theorem eq_ofInt {n : U32} {z : Int} (h : (n.toNat : Int) % 4294967296 = z % 4294967296) :
    n = BitVec.ofInt 32 z := by
  apply BitVec.eq_of_toNat_eq
  rw [BitVec.toNat_ofInt]
  have := n.isLt
  omega

theorem add_ofInt {n : U32} {z w : Int} (h : n = BitVec.ofInt 32 z) :
    n + BitVec.ofInt 32 w = BitVec.ofInt 32 (z + w) := by
  rw [h, BitVec.ofInt_add]

theorem flame_number (a b : U8) : (BitVec.ofNat 8 (a.toNat / 4 * 3 + b.toNat / 4 * 1) : U8).toNat =
    3 * (a.toNat / 4) + b.toNat / 4 := by
  have := a.isLt
  have := b.isLt
  rw [BitVec.toNat_ofNat]
  omega

/-- The gradient at a noise value. -/
theorem flame_colour {F : FastLED} {n : U8} {pos : U16} {g : CHSV} {rng : U16}
    (hpos : pos.toNat = 256 * n.toNat) (hg : flameColours.getGradient F pos false = .ok g) :
    (do let color ← Effects.firePalette.getGradient F (n.setWidth 16 <<< 8) false
        return (Colour.hsv color, rng) : Except Fault (Colour × U16)) = .ok (.hsv g, rng) := by
  have : n.setWidth 16 <<< 8 = pos := by
    apply BitVec.eq_of_toNat_eq
    rw [hpos, BitVec.toNat_shiftLeft, Nat.shiftLeft_eq, BitVec.toNat_setWidth]
    have := n.isLt
    omega
  rw [this, show Effects.firePalette = flameColours from rfl, hg]
  rfl

theorem flame_clock (t : U32) (o : U16) :
    (t + o.setWidth 32).toNat = (t.toNat + o.toNat) % 2 ^ 32 := by
  rw [BitVec.toNat_add, BitVec.toNat_setWidth]
  have := o.isLt
  omega

/-- C122.  The fire effect shows the colour at three quarters of the noise at one point plus a
quarter of the noise at another, on the way from the coldest to the hottest colour. -/
theorem fire_pattern (F : FastLED) (plat : Platform) (o : U16) (led : U8) (t : U32)
    (strip : Strip) (pkt : Packet) (rng : U16) (hled : led.toNat < strip.count.toNat)
    {places : (Int × Int) × (Int × Int)}
    (hplaces : places = flamePlaces F strip led.toNat ((t.toNat + o.toNat) % 2 ^ 32)) {pos : U16}
    (hpos : pos.toNat = 256 * (3 * (noiseAt F places.1 / 4) + noiseAt F places.2 / 4)) :
    ∃ g rng', flameColours.getGradient F pos false = .ok g ∧
      (Effect.fire o).getColour F plat led t strip pkt rng = .ok (.hsv g, rng') := by
  obtain ⟨l, c, hm, hl, hc, hc0, hlc⟩ := mirrored_coordinate hled
  obtain ⟨g, hg⟩ := gradient_total F flameColours pos false (by decide)
  have hT := flame_clock t o
  have hTlt : (t.toNat + o.toNat) % 2 ^ 32 < 2 ^ 32 := Nat.mod_lt _ (by decide)
  generalize (t.toNat + o.toNat) % 2 ^ 32 = T at hT hplaces hTlt
  have e8 : ((t + o.setWidth 32) / 8 : U32) = BitVec.ofInt 32 (T / 8 : Nat) := by
    apply eq_ofInt
    rw [BitVec.toNat_udiv, hT]
    rfl
  have e2 : ((t + o.setWidth 32) / 2 + 1234567 : U32) =
      BitVec.ofInt 32 ((T / 2 : Nat) + 1234567) := by
    apply eq_ofInt
    rw [BitVec.toNat_add, BitVec.toNat_udiv, hT, show (2 : U32).toNat = 2 from rfl,
      show (1234567 : U32).toNat = 1234567 from rfl]
    omega
  suffices h : ∃ rng', (Effect.fire o).getColour F plat led t strip pkt rng =
      .ok (.hsv g, rng') from
    let ⟨rng', h⟩ := h
    ⟨g, rng', hg, h⟩
  rw [flamePlaces] at hplaces
  by_cases hcirc : strip.flagEnabled .circular = true
  · rw [if_pos hcirc] at hplaces
    have hpoc : getPosOnCircle c l = .ok (BitVec.ofNat 8 (255 * coordinate strip led.toNat /
        coordinates strip), BitVec.ofNat 8 (coordinates strip * 32000 / 6283)) := by
      have h0 : c ≠ 0 := by rintro rfl; exact absurd hc0 (by decide)
      rw [getPosOnCircle, if_neg h0, hl, hc, Nat.mul_comm _ 255, Nat.mul_assoc]
    have hside : (if strip.flagEnabled .mirrored ∧ strip.count.toNat / 2 < led.toNat then 6789
        else 0 : U32) = BitVec.ofInt 32
        (if strip.flagEnabled .mirrored ∧ strip.count.toNat / 2 < led.toNat then 6789 else 0) := by
      split <;> rfl
    have hr : ((BitVec.ofNat 8 (coordinates strip * 32000 / 6283) : U8).toNat : Int) =
        (coordinates strip * 32000 / 6283 % 256 : Nat) := by
      rw [BitVec.toNat_ofNat]
    subst hplaces
    simp only [Effect.getColour, Effects.fire, bind, Except.bind, hm, if_pos hcirc, hpoc, e2, e8,
      pure, Except.pure, perlinNoisePolar, hr, hside]
    refine ⟨_, flame_colour ?_ hg⟩
    rw [hpos, flame_number]
    have hz : ∀ a : U32, 0 + a = a := fun a => BitVec.zero_add a
    simp only [noiseAt, ← BitVec.ofInt_add, hz]
    rw [noise_ignores_generator F _ _ 0 rng]
    congr 3
  · rw [if_neg hcirc] at hplaces
    have e1 : (BitVec.ofNat 32 (l.toNat * 20) : U32) =
        BitVec.ofInt 32 (20 * (coordinate strip led.toNat : Int)) := by
      rw [← hl]; apply eq_ofInt; rw [BitVec.toNat_ofNat]; have := l.isLt; omega
    have e3 : (BitVec.ofNat 32 (l.toNat * 10 + 1234) : U32) =
        BitVec.ofInt 32 (10 * (coordinate strip led.toNat : Int) + 1234) := by
      rw [← hl]; apply eq_ofInt; rw [BitVec.toNat_ofNat]; have := l.isLt; omega
    subst hplaces
    simp only [Effect.getColour, Effects.fire, bind, Except.bind, hm, if_neg hcirc, e1, e2, e3, e8,
      pure, Except.pure]
    exact ⟨_, flame_colour (by rw [hpos, flame_number]; rfl) hg⟩

/-- C122, the second half of a mirrored circle begins one LED late if the number of LEDs is even:
the LED in the middle still shows what its mirror image in the first half shows. -/
theorem fire_seam_places (F : FastLED) (strip : Strip) (hm : strip.flagEnabled .mirrored)
    (heven : strip.count.toNat % 2 = 0) (hpos : 0 < strip.count.toNat) (ms : Nat) :
    flamePlaces F strip (strip.count.toNat / 2) ms =
      flamePlaces F strip (strip.count.toNat / 2 - 1) ms := by
  have hx : coordinate strip (strip.count.toNat / 2) = coordinate strip (strip.count.toNat / 2 - 1) := by
    unfold coordinate
    rw [if_pos hm, if_pos hm]
    omega
  unfold flamePlaces
  rw [hx, if_neg (by omega : ¬ (_ ∧ strip.count.toNat / 2 < strip.count.toNat / 2)),
    if_neg (by omega : ¬ (_ ∧ strip.count.toNat / 2 < strip.count.toNat / 2 - 1))]

/-- C122: the first LED of the second half of a mirrored strip with an even number of LEDs shows
the same as the last of the first half. -/
theorem fire_seam (F : FastLED) (plat : Platform) (o : U16) (t : U32) (strip : Strip)
    (hm : strip.flagEnabled .mirrored) (heven : strip.count.toNat % 2 = 0)
    (hpos : 0 < strip.count.toNat) (pkt : Packet) (rng rng' : U16) {i j : U8}
    (hi : i.toNat = strip.count.toNat / 2) (hj : j.toNat = strip.count.toNat / 2 - 1) :
    ∃ g r r', (Effect.fire o).getColour F plat i t strip pkt rng = .ok (.hsv g, r) ∧
      (Effect.fire o).getColour F plat j t strip pkt rng' = .ok (.hsv g, r') := by
  have hp := fire_seam_places F strip hm heven hpos ((t.toNat + o.toNat) % 2 ^ 32)
  rw [← hj, ← hi] at hp
  generalize hpl : flamePlaces F strip i.toNat ((t.toNat + o.toNat) % 2 ^ 32) = places at hp
  have hn : ∀ q, noiseAt F q < 256 := fun q => BitVec.isLt _
  have h1 := hn places.1
  have h2 := hn places.2
  have hps : (BitVec.ofNat 16 (256 * (3 * (noiseAt F places.1 / 4) + noiseAt F places.2 / 4))).toNat =
      256 * (3 * (noiseAt F places.1 / 4) + noiseAt F places.2 / 4) := by
    rw [BitVec.toNat_ofNat]
    omega
  obtain ⟨g, r, hg, h⟩ := fire_pattern F plat o i t strip pkt rng (by omega) hpl.symm hps
  obtain ⟨g', r', hg', h'⟩ := fire_pattern F plat o j t strip pkt rng' (by omega) hp hps
  rw [hg] at hg'
  cases hg'
  exact ⟨g, r, r', h, h'⟩

/-- Concrete cases: a straight strip and both halves of a mirrored circle. -/
example : flamePlaces FastLED.reference (Strip.new 60 []) 7 8000 = ((140, 1000), (1304, 1238567)) ∧
    flamePlaces FastLED.reference (Strip.new 20 [.circular, .mirrored]) 3 8000 =
      ((986, 46), (1238553, 46)) ∧
    flamePlaces FastLED.reference (Strip.new 20 [.circular, .mirrored]) 16 8000 =
      ((986, 6835), (1238553, 46)) := by decide +kernel

example : (Effect.fire 17).getColour FastLED.reference .host 16 5000
    (Strip.new 20 [.circular, .mirrored]) (shapePacket 1) 0 =
    .ok (.hsv ⟨27, 248, 85⟩, 59878) := by decide +kernel

end Firefly.Props
