import Verif.Lemmas.Gradual
import Verif.Props.Motion

/-! # Gradients change gradually (C168) -/

namespace Firefly.Props
open Spec

/-- **C168.** Moving on by `d` in a gradient whose colours are `R` apart changes saturation and value by at most
`255 d / R + 3` and the hue by at most `128 d / R + 3` steps of the wheel, whatever the colours. -/
theorem gradient_gradual {F : FastLED} (hF : F.Lawful) (p : Palette) (wrap : Bool) (h2 : 2 ≤ p.length)
    (h255 : p.length ≤ 255) {pos pos' : U16} {d : Nat} (hd : pos'.toNat = pos.toNat + d) {c c' : CHSV}
    (hc : p.getGradient F pos wrap = .ok c) (hc' : p.getGradient F pos' wrap = .ok c') :
    let R := spacing p.length wrap
    apart c.s.toNat c'.s.toNat * R ≤ 255 * d + 3 * R ∧ apart c.v.toNat c'.v.toNat * R ≤ 255 * d + 3 * R ∧
      huesApart c.h.toNat c'.h.toNat * R ≤ 128 * d + 3 * R := by
  obtain ⟨s, v, k, h⟩ := gradient_rounds hF p pos wrap h2 h255 hc
  obtain ⟨s', v', k', h'⟩ := gradient_rounds hF p pos' wrap h2 h255 hc'
  have hR := spacing_pos wrap h2 h255
  rw [hd] at s' v' h'
  intro R
  refine ⟨channel_apart s s' ?_, channel_apart v v' ?_, hue_apart (w := 0) h h' ?_⟩
  · exact polygon_near (A := fun i => ((p.at (by omega) i).s.toNat : Int)) (K := 255) (fun i => byte_step _ _) hR _ d
  · exact polygon_near (A := fun i => ((p.at (by omega) i).v.toNat : Int)) (K := 255) (fun i => byte_step _ _) hR _ d
  · rw [mul_zero, mul_zero, add_zero]
    exact polygon_near (K := 128) (unrolled_step fun i => (p.at (by omega) i).h.isLt) hR _ d

/-- **C168.** The same round and round: moving on by `d` in a closed gradient, over the end or not, changes
saturation and value by at most `255 (d + n) / R + 3` and the hue by at most `128 (d + n) / R + 3`, where `n` is
the number of colours. -/
theorem gradient_gradual_round {F : FastLED} (hF : F.Lawful) (p : Palette) (h2 : 2 ≤ p.length)
    (h255 : p.length ≤ 255) {pos pos' : U16} {d : Nat} (hd : pos'.toNat = (pos.toNat + d) % 65536) {c c' : CHSV}
    (hc : p.getGradient F pos = .ok c) (hc' : p.getGradient F pos' = .ok c') :
    let n := p.length
    let R := spacing n true
    apart c.s.toNat c'.s.toNat * R ≤ 255 * (d + n) + 3 * R ∧
      apart c.v.toNat c'.v.toNat * R ≤ 255 * (d + n) + 3 * R ∧
      huesApart c.h.toNat c'.h.toNat * R ≤ 128 * (d + n) + 3 * R := by
  intro n R
  have hpos := pos.isLt
  by_cases hin : pos.toNat + d % 65536 < 65536
  · obtain ⟨h1, h3, h4⟩ := gradient_gradual hF p true h2 h255 (d := d % 65536) (by omega) hc hc'
    have hle : d % 65536 ≤ d + n := Nat.le_trans (Nat.mod_le _ _) (Nat.le_add_right _ _)
    refine ⟨Nat.le_trans h1 ?_, Nat.le_trans h3 ?_, Nat.le_trans h4 ?_⟩ <;>
      exact Nat.add_le_add_right (Nat.mul_le_mul_left _ hle) _
  · obtain ⟨s, v, k, h⟩ := gradient_rounds hF p pos true h2 h255 hc
    obtain ⟨s', v', k', h'⟩ := gradient_rounds hF p pos' true h2 h255 hc'
    have hle : 65535 - pos.toNat + n + pos'.toNat ≤ d + n := by omega
    have hat : p.at (by omega) p.length = p.at (by omega) 0 := by
      unfold Palette.at
      congr 1
      rw [Nat.mod_self, Nat.zero_mod]
    have hsp : spacing p.length true = 65535 / p.length := by simp [spacing]
    rw [hsp] at s v h s' v' h'
    have hR : R = 65535 / p.length := hsp
    rw [hR]
    refine ⟨channel_apart s s' ?_, channel_apart v v' ?_, ?_⟩
    · have := polygon_round (A := fun i => ((p.at (by omega) i).s.toNat : Int)) (K := 255)
        (fun i => byte_step _ _) (n := n) (by omega) h255 (w := 0) (by simp [hat, n]) (x := pos.toNat)
        (y := pos'.toNat) (by omega)
      rw [mul_zero, add_zero] at this
      exact le_trans this (by exact_mod_cast Nat.mul_le_mul_left _ hle)
    · have := polygon_round (A := fun i => ((p.at (by omega) i).v.toNat : Int)) (K := 255)
        (fun i => byte_step _ _) (n := n) (by omega) h255 (w := 0) (by simp [hat, n]) (x := pos.toNat)
        (y := pos'.toNat) (by omega)
      rw [mul_zero, add_zero] at this
      exact le_trans this (by exact_mod_cast Nat.mul_le_mul_left _ hle)
    · obtain ⟨j, hj⟩ := unrolled_mod (fun i => (p.at (by omega) i).h.toNat) n
      have := polygon_round (K := 128) (unrolled_step fun i => (p.at (by omega) i).h.isLt) (n := n) (by omega)
        h255 (w := 255 * -j) (by rw [hj]; simp [hat, n, unrolled]) (x := pos.toNat) (y := pos'.toNat) (by omega)
      exact hue_apart h h' (le_trans this (by exact_mod_cast Nat.mul_le_mul_left _ hle))

/-- Between two colours and over the end. -/
example :
    Palette.getGradient FastLED.reference [⟨0, 255, 255⟩, ⟨200, 0, 255⟩] 16000 = .ok ⟨229, 131, 255⟩ ∧
    Palette.getGradient FastLED.reference [⟨0, 255, 255⟩, ⟨200, 0, 255⟩] 20000 = .ok ⟨222, 100, 255⟩ ∧
    Palette.getGradient FastLED.reference [⟨0, 255, 255⟩, ⟨200, 0, 255⟩] 65000 = .ok ⟨254, 250, 255⟩ ∧
    Palette.getGradient FastLED.reference [⟨0, 255, 255⟩, ⟨200, 0, 255⟩] 1000 = .ok ⟨254, 248, 255⟩ := by
  decide +kernel

/-- The colours of a shipped palette are at least 10922 apart. -/
theorem shipped_spacing {n d D K x m : Nat} (h2 : 2 ≤ n) (h6 : n ≤ 6) (hd : d ≤ D)
    (hx : x * spacing n true ≤ K * (d + n) + 3 * spacing n true) (hm : K * (D + 6) < (m - 2) * 10922) : x ≤ m := by
  have hR : 10922 ≤ spacing n true := by
    simp only [spacing, if_true]
    exact (Nat.le_div_iff_mul_le (by omega)).2 (by omega)
  generalize spacing n true = R at *
  by_contra h
  have h1 : K * (d + n) ≤ K * (D + 6) := Nat.mul_le_mul_left _ (by omega)
  have h3 : (m - 2 + 3) * R ≤ x * R := Nat.mul_le_mul_right _ (by omega)
  have h4 : (m - 2) * 10922 ≤ (m - 2) * R := Nat.mul_le_mul_left _ hR
  rw [Nat.add_mul] at h3
  omega

section
variable {F : FastLED} (plat : Platform) (strip : Strip) (pkt : Packet) (rng rng' : U16)
  (hpkt : NamesPalette plat pkt) {p : Palette} (hp : palettes[pkt.data[2].toNat]? = some p) (h2 : 2 ≤ p.length)
include hpkt hp h2

/-- **C168.** Under the colour cycle with a palette of two or more colours the colour changes by at most 6 steps of
the wheel in hue and 9 of 255 in saturation and value within 16 ms, also where the clock wraps around. -/
theorem colour_cycle_gradual (hF : F.Lawful) (led led' : U8) (t : U32) {d : Nat} (hd : d ≤ 16) :
    ∃ c c', Effect.colorCycle.getColour F plat led t strip pkt rng = .ok (.hsv c, rng) ∧
      Effect.colorCycle.getColour F plat led' (t + BitVec.ofNat 32 d) strip pkt rng' = .ok (.hsv c', rng') ∧
      huesApart c.h.toNat c'.h.toNat ≤ 6 ∧ apart c.s.toNat c'.s.toNat ≤ 9 ∧ apart c.v.toNat c'.v.toNat ≤ 9 := by
  have ht := t.isLt
  have et : (t + BitVec.ofNat 32 d).toNat = (t.toNat + d) % 2 ^ 32 := by
    rw [BitVec.toNat_add, BitVec.toNat_ofNat]; omega
  have hsm := palettes_small p (List.mem_of_getElem? hp)
  obtain ⟨g, hg, hc⟩ := colour_cycle_gradient F plat led t strip pkt rng hpkt hp h2
    (BitVec.ofNat 16 (256 * (t.toNat / 16 % 256))) (by rw [BitVec.toNat_ofNat]; omega)
  obtain ⟨g', hg', hc'⟩ := colour_cycle_gradient F plat led' (t + BitVec.ofNat 32 d) strip pkt rng' hpkt hp h2
    (BitVec.ofNat 16 (256 * ((t + BitVec.ofNat 32 d).toNat / 16 % 256))) (by rw [BitVec.toNat_ofNat]; omega)
  refine ⟨_, _, hc, hc', ?_⟩
  obtain ⟨a1, a2, a3⟩ := gradient_gradual_round hF p h2 (by omega)
    (d := 256 * ((t.toNat + d) / 16 - t.toNat / 16)) (by
      rw [BitVec.toNat_ofNat, BitVec.toNat_ofNat, et]; omega) hg hg'
  have hd' : 256 * ((t.toNat + d) / 16 - t.toNat / 16) ≤ 256 := by omega
  have b1 := shipped_spacing (m := 9) h2 hsm.2 hd' a1 (by decide)
  have b2 := shipped_spacing (m := 9) h2 hsm.2 hd' a2 (by decide)
  have b3 := shipped_spacing (m := 6) h2 hsm.2 hd' a3 (by decide)
  refine ⟨b3, b1, ?_⟩
  by_cases hb : strip.flagEnabled .bright = true
  · simp only [hb, if_true]
    exact b2
  · simp only [hb, if_false, Bool.false_eq_true]
    rw [BitVec.toNat_udiv, BitVec.toNat_udiv, show (2 : U8).toNat = 2 from rfl]
    unfold apart at b2 ⊢
    omega

/-- **C168.** A rainbow of two or more colours changes at an LED by at most 6 steps of the wheel in hue and 9 of 255
in saturation within 16 ms, and keeps its value. -/
theorem rainbow_gradual (hF : F.Lawful) (led : U8) (t : U32) {d : Nat} (hd : d ≤ 16) :
    ∃ c c', Effect.rainbow.getColour F plat led t strip pkt rng = .ok (.hsv c, rng) ∧
      Effect.rainbow.getColour F plat led (t + BitVec.ofNat 32 d) strip pkt rng' = .ok (.hsv c', rng') ∧
      huesApart c.h.toNat c'.h.toNat ≤ 6 ∧ apart c.s.toNat c'.s.toNat ≤ 9 ∧ c.v = c'.v := by
  have ht := t.isLt
  have et : (t + BitVec.ofNat 32 d).toNat = (t.toNat + d) % 2 ^ 32 := by
    rw [BitVec.toNat_add, BitVec.toNat_ofNat]; omega
  have hsm := palettes_small p (List.mem_of_getElem? hp)
  generalize hk : (if strip.flagEnabled .tiny then 0 else 8 * led.toNat) = k
  obtain ⟨g, hg, hc⟩ := rainbow_position F plat led t strip pkt rng hpkt hp h2
    (BitVec.ofNat 16 (256 * ((t.toNat / 16 + k) % 256))) (by rw [hk, BitVec.toNat_ofNat]; omega)
  obtain ⟨g', hg', hc'⟩ := rainbow_position F plat led (t + BitVec.ofNat 32 d) strip pkt rng' hpkt hp h2
    (BitVec.ofNat 16 (256 * (((t + BitVec.ofNat 32 d).toNat / 16 + k) % 256)))
    (by rw [hk, BitVec.toNat_ofNat]; omega)
  obtain ⟨a1, a2, a3⟩ := gradient_gradual_round hF p h2 (by omega)
    (d := 256 * ((t.toNat + d) / 16 - t.toNat / 16)) (by
      rw [BitVec.toNat_ofNat, BitVec.toNat_ofNat, et]; omega) hg hg'
  have hd' : 256 * ((t.toNat + d) / 16 - t.toNat / 16) ≤ 256 := by omega
  exact ⟨_, _, hc, hc', shipped_spacing h2 hsm.2 hd' a3 (by decide), shipped_spacing h2 hsm.2 hd' a1 (by decide), rfl⟩

/-- **C168.** Neighbouring LEDs of a rainbow of two or more colours differ by at most 27 steps of the wheel in hue and
50 of 255 in saturation. -/
theorem rainbow_neighbours (hF : F.Lawful) (led led' : U8) (hl : led'.toNat = led.toNat + 1) (t : U32) :
    ∃ c c', Effect.rainbow.getColour F plat led t strip pkt rng = .ok (.hsv c, rng) ∧
      Effect.rainbow.getColour F plat led' t strip pkt rng' = .ok (.hsv c', rng') ∧
      huesApart c.h.toNat c'.h.toNat ≤ 27 ∧ apart c.s.toNat c'.s.toNat ≤ 50 ∧ c.v = c'.v := by
  have ht := t.isLt
  have hsm := palettes_small p (List.mem_of_getElem? hp)
  obtain ⟨g, hg, hc⟩ := rainbow_position F plat led t strip pkt rng hpkt hp h2
    (BitVec.ofNat 16 (256 * ((t.toNat / 16 + if strip.flagEnabled .tiny then 0 else 8 * led.toNat) % 256)))
    (by rw [BitVec.toNat_ofNat]; omega)
  obtain ⟨g', hg', hc'⟩ := rainbow_position F plat led' t strip pkt rng' hpkt hp h2
    (BitVec.ofNat 16 (256 * ((t.toNat / 16 + if strip.flagEnabled .tiny then 0 else 8 * led'.toNat) % 256)))
    (by rw [BitVec.toNat_ofNat]; omega)
  obtain ⟨a1, a2, a3⟩ := gradient_gradual_round hF p h2 (by omega)
    (d := if strip.flagEnabled .tiny then 0 else 2048) (by
      rw [BitVec.toNat_ofNat, BitVec.toNat_ofNat, hl]; split <;> omega) hg hg'
  have hd' : (if strip.flagEnabled .tiny then 0 else 2048) ≤ 2048 := by split <;> omega
  exact ⟨_, _, hc, hc', shipped_spacing h2 hsm.2 hd' a3 (by decide), shipped_spacing h2 hsm.2 hd' a1 (by decide), rfl⟩

end

/-- Red, green and blue along the strip and as time goes by. -/
example : NamesPalette .host motionPacket ∧
    palettes[motionPacket.data[2].toNat]? = some [⟨0, 255, 255⟩, ⟨96, 255, 255⟩, ⟨160, 255, 255⟩] ∧
    [Effect.rainbow.getColour FastLED.reference .host 7 0xFFFFFFFF (Strip.new 60 []) motionPacket 0,
      Effect.rainbow.getColour FastLED.reference .host 7 0 (Strip.new 60 []) motionPacket 0,
      Effect.rainbow.getColour FastLED.reference .host 8 0 (Strip.new 60 []) motionPacket 0].map
        (fun r => r.toOption.map (·.1)) =
      [some (.hsv ⟨61, 255, 128⟩), some (.hsv ⟨63, 255, 128⟩), some (.hsv ⟨72, 255, 128⟩)] :=
  ⟨⟨fun _ => ⟨rfl, rfl⟩, by decide⟩, by decide, by decide +kernel⟩

end Firefly.Props
