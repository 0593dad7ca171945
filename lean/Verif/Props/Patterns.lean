import Verif.Props.Effects
import Verif.Props.Device

/-! # Properties of the patterns shown by individual effects -/

namespace Firefly.Props
open Firefly Spec

/-! ## C62: blinkers -/

/-- C62: a blinker with parameter `s` is lit during the first `s` ms of every `3 s` ms, with a
clearly visible colour, and black otherwise. -/
theorem blink_duty {F : FastLED} (hF : F.Lawful) (plat : Platform) (s : U16) (led : U8) (t : U32)
    (strip : Strip) (pkt : Packet) (rng : U16) (hs : 1 ≤ s.toNat) (hpkt : NamesPalette plat pkt) :
    (t.toNat % (3 * s.toNat) < s.toNat →
      ∃ c : CHSV, (Effect.simpleBlink s).getColour F plat led t strip pkt rng =
        .ok (.hsv c, rng) ∧
        if strip.flagEnabled .bright then 150 ≤ c.v.toNat else 75 ≤ c.v.toNat ∧ c.v.toNat ≤ 127) ∧
    (s.toNat ≤ t.toNat % (3 * s.toNat) →
      (Effect.simpleBlink s).getColour F plat led t strip pkt rng =
        .ok (.rgb ⟨0, 0, 0⟩, rng)) := by
  have hs0 : s ≠ 0 := by intro h; rw [h] at hs; exact absurd hs (by decide)
  obtain ⟨p, hp, hmem⟩ := paletteOf_ok hpkt
  have hchunk : ((t / s.setWidth 32) % 3 : U32) = 0 ↔ t.toNat % (3 * s.toNat) < s.toNat := by
    have h3 : (3 : U32).toNat = 3 := rfl
    have hsl := s.isLt
    have hsw : (s.setWidth 32 : U32).toNat = s.toNat := by
      rw [BitVec.toNat_setWidth]; omega
    rw [← BitVec.toNat_inj, BitVec.toNat_umod, BitVec.toNat_udiv, hsw, h3,
      show (0 : U32).toNat = 0 from rfl, Nat.mul_comm, ← Nat.mod_mul_right_div_self,
      Nat.div_eq_zero_iff]
    omega
  obtain ⟨c, hc⟩ := getGradient_ok hmem F ((t / 4 * 23).setWidth 16) true
  have hr := gradient_value_range hF (palettes_small p hmem).1
    (Nat.le_trans (palettes_small p hmem).2 (by decide)) (lo := 150) (hi := 255)
    (fun c hc => ⟨palettes_bright p hmem c hc, by have := c.v.isLt; omega⟩) hc
  constructor
  · intro h
    have h := hchunk.2 h
    by_cases hb : strip.flagEnabled .bright = true
    · refine ⟨c, ?_, by rw [if_pos hb]; exact hr.1⟩
      simp only [Effect.getColour, Effects.simpleBlink, if_neg hs0, if_pos h, hp, bind,
        Except.bind, hc, hb, Except.map, pure, Except.pure, not_true_eq_false, if_false]
    · refine ⟨{ c with v := c.v / 2 }, ?_, ?_⟩
      · simp only [Effect.getColour, Effects.simpleBlink, if_neg hs0, if_pos h, hp, bind,
          Except.bind, hc, hb, Except.map, pure, Except.pure, not_false_eq_true, if_true,
          Bool.false_eq_true]
      · rw [if_neg hb]
        simp only [BitVec.toNat_udiv, show (2 : U8).toNat = 2 from rfl]
        have := c.v.isLt
        omega
  · intro h
    have h : ¬ ((t / s.setWidth 32) % 3 : U32) = 0 := by rw [hchunk]; omega
    simp only [Effect.getColour, Effects.simpleBlink, if_neg hs0, if_neg h]
    rfl

example : (1 : Nat) ≤ (60 : U16).toNat ∧ 130 % (3 * (60 : U16).toNat) ≥ 60 := by decide

/-! ## C63: the spark -/

/-- The brightness of the spark at a relative position. -/
theorem spark_eq {F : FastLED} {plat : Platform} {led l c : U8} {t : U32} {strip : Strip}
    {pkt : Packet} {p : Palette} (hp : paletteOf plat pkt = .ok p) (hmem : p ∈ palettes)
    (hm : mirrored strip led = .ok (l, c)) {rel : Int} {rev : Bool}
    (hs : Effects.sparkPos l c t strip = .ok (rel, rev)) (rng : U16) :
    ∃ col, Effect.spark.getColour F plat led t strip pkt rng = .ok (.hsv col, rng) ∧
      (col.v ≠ 0 ↔ 0 ≤ rel ∧ rel < 8) := by
  obtain ⟨h, hh⟩ := getGradient_ok hmem F
    (((t / 24 + BitVec.ofInt 32 (rel * 14)) <<< 8).setWidth 16) true
  have h8 : Effects.brightnesses.length = 8 := rfl
  simp only [Effect.getColour, Effects.spark, bind, Except.bind, hp, hm, hs, hh, pure,
    Except.pure, h8]
  by_cases h0 : rel < 0
  · rw [if_pos h0]
    exact ⟨_, rfl, by simp; omega⟩
  rw [if_neg h0]
  by_cases h1 : rel < ((8 : Nat) : Int)
  · rw [if_pos (by omega), if_pos h1]
    have hall : ∀ i < 8, ∃ b, vecGet Effects.brightnesses i = .ok b ∧ b ≠ 0 := by decide
    obtain ⟨b, hb, hb0⟩ := hall (if rev = true then 8 - rel.toNat - 1 else rel.toNat)
      (by split <;> omega)
    rw [hb]
    exact ⟨_, rfl, by simp only [ne_eq, hb0, not_false_eq_true, true_iff]; omega⟩
  · rw [if_neg h1]
    split
    · exact ⟨_, rfl, by simp; omega⟩
    · exact ⟨_, rfl, by simp; omega⟩

/-- C63: at any time the lit LEDs of a non-circular strip are those in one window of eight
neighbouring coordinates; all others are dark.  (On a mirrored strip the coordinate is the
distance from the nearer end, so there are two windows.) -/
theorem spark_window (F : FastLED) (plat : Platform) (t : U32) (strip : Strip) (pkt : Packet)
    (rng : U16) (hpkt : NamesPalette plat pkt) (hcirc : strip.flagEnabled .circular = false) :
    ∃ w : Int, -7 ≤ w ∧ w ≤ coordinates strip + 1 ∧ ∀ led : U8, led < strip.count →
      ∃ c, Effect.spark.getColour F plat led t strip pkt rng = .ok (.hsv c, rng) ∧
        (c.v ≠ 0 ↔
          w ≤ coordinate strip led.toNat ∧ (coordinate strip led.toNat : Int) < w + 8) := by
  obtain ⟨p, hp, hmem⟩ := paletteOf_ok hpkt
  let len := coordinates strip + 8
  let pos := (t * BitVec.ofNat 32 len / 3000 % BitVec.ofNat 32 (len * 2)).toNat
  have hcs : coordinates strip ≤ 255 := by
    unfold coordinates
    have := strip.count.isLt
    split <;> omega
  have hpos : pos < len * 2 := by
    have : (BitVec.ofNat 32 (len * 2) : U32).toNat = len * 2 := by
      rw [BitVec.toNat_ofNat]; omega
    simp only [pos, BitVec.toNat_umod, this]
    exact Nat.mod_lt _ (by omega)
  refine ⟨(if len < pos then (len - (pos - len) : Nat) else pos : Int) - 7, ?_, ?_, ?_⟩
  · split <;> omega
  · split <;> omega
  intro led hled
  obtain ⟨l, c, hm, hl, hc, -, -⟩ := mirrored_coordinate (strip := strip) hled
  have hsp : ∃ rev, Effects.sparkPos l c t strip =
      .ok ((if len < pos then (len - (pos - len) : Nat) else pos : Int) - l.toNat, rev) := by
    simp only [Effects.sparkPos, hcirc, hc, Bool.false_eq_true, if_false,
      show Effects.brightnesses.length = 8 from rfl]
    by_cases h : len < pos
    · exact ⟨true, by rw [if_pos h, if_pos h]⟩
    · exact ⟨false, by rw [if_neg h, if_neg h]⟩
  obtain ⟨rev, hsp⟩ := hsp
  obtain ⟨col, h1, h2⟩ := spark_eq (F := F) hp hmem hm hsp rng
  refine ⟨col, h1, ?_⟩
  rw [h2, ← hl]
  split <;> omega

/-- C63: on a circular strip the lit LEDs are eight neighbours on the circle (all of them if
there are fewer). -/
theorem spark_window_circular (F : FastLED) (plat : Platform) (t : U32) (strip : Strip)
    (pkt : Packet) (rng : U16) (hpkt : NamesPalette plat pkt)
    (hcirc : strip.flagEnabled .circular = true) :
    ∃ a : Nat, ∀ led : U8, led < strip.count →
      ∃ c, Effect.spark.getColour F plat led t strip pkt rng = .ok (.hsv c, rng) ∧
        (c.v ≠ 0 ↔ (a + coordinate strip led.toNat) % coordinates strip < 8) := by
  obtain ⟨p, hp, hmem⟩ := paletteOf_ok hpkt
  refine ⟨(t * BitVec.ofNat 32 (coordinates strip) / 3000).toNat, ?_⟩
  intro led hled
  obtain ⟨l, c, hm, hl, hc, hc0, -⟩ := mirrored_coordinate (strip := strip) hled
  have hsp : Effects.sparkPos l c t strip =
      .ok ((((t * BitVec.ofNat 32 (coordinates strip) / 3000).toNat +
        coordinate strip led.toNat) % coordinates strip : Nat), false) := by
    have hcn : c ≠ 0 := by intro h; rw [h] at hc0; exact absurd hc0 (by decide)
    have hcw : (c.setWidth 32 : U32) = BitVec.ofNat 32 (coordinates strip) := by
      rw [← hc]; apply BitVec.eq_of_toNat_eq; simp
    simp only [Effects.sparkPos, hcirc, if_true, if_neg hcn, hcw, BitVec.toNat_umod,
      BitVec.toNat_add, BitVec.toNat_udiv, ← hl]
    have hlw : (l.setWidth 32 : U32).toNat = l.toNat := by
      rw [BitVec.toNat_setWidth]; have := l.isLt; omega
    have hcc : (BitVec.ofNat 32 (coordinates strip) : U32).toNat = coordinates strip := by
      rw [BitVec.toNat_ofNat]; have := c.isLt; omega
    have h3 : (3000 : U32).toNat = 3000 := rfl
    have hlt := (t * BitVec.ofNat 32 (coordinates strip)).isLt
    have := l.isLt
    rw [hlw, hcc, h3, Nat.mod_eq_of_lt (a := _ + _) (by omega)]
  obtain ⟨col, h1, h2⟩ := spark_eq (F := F) hp hmem hm hsp rng
  refine ⟨col, h1, ?_⟩
  rw [h2]
  omega

/-- C63: an LED with value zero is black. -/
theorem dark_is_black {F : FastLED} (hF : F.Lawful) (c : CHSV) (h : c.v = 0) :
    (Colour.hsv c).toRGB F = ⟨0, 0, 0⟩ := hF.hsv2rgb_black c h

/-- After 1.3 s on a strip of 120: the head, the tail, and the LEDs just outside the window. -/
example : [(56 : Nat), 55, 50, 48, 47].map (fun i => match Effect.spark.getColour FastLED.reference
      .host (BitVec.ofNat 8 i) 1300 (Strip.new 120 []) exampleInstruction 0 with
    | .ok (.hsv c, _) => some c.v | _ => none) =
    [some 0, some 255, some 32, some 16, some 0] := by decide +kernel

/-! ## C64: fireflies -/

/-- C64: in the middle one of every three periods of 20 s the fireflies of all devices agree. -/
theorem fireflies_in_sync (F : FastLED) (plat : Platform) (o o' : U32) (led : U8) (t : U32)
    (strip : Strip) (pkt : Packet) (rng : U16) (h : t.toNat / 20000 % 3 = 1) :
    (Effect.firefly o).getColour F plat led t strip pkt rng =
      (Effect.firefly o').getColour F plat led t strip pkt rng := by
  have hph : (t / Effects.kPeriodMs) % 3 = 1 := by
    apply BitVec.eq_of_toNat_eq
    rw [BitVec.toNat_umod, BitVec.toNat_udiv]
    exact h
  have key : ∀ o, Effects.fireflyTime o t = t := by
    intro o
    simp only [Effects.fireflyTime, hph]
    rfl
  simp only [Effect.getColour, Effects.firefly, key]
  rfl

/-- C64: a firefly's clock is the network time shifted by at most its offset; the shift changes
by at most 1 ms from each ms to the next, and it is zero while in sync. -/
theorem firefly_shift_is_smooth (o : U32) (ho : o.toNat < 512) :
    ∃ shift : Nat → Int,
      (∀ t : U32, Effects.fireflyTime o t = t + BitVec.ofInt 32 (shift t.toNat)) ∧
      (∀ ms, (shift ms).natAbs ≤ o.toNat) ∧
      (∀ ms, (shift (ms + 1) - shift ms).natAbs ≤ 1) ∧
      ∀ ms, ms / 20000 % 3 = 1 → shift ms = 0 := by
  let mag : Nat → Nat := fun ms =>
    if ms / 20000 % 3 = 0 then o.toNat * (20000 - ms % 20000) / 20000
    else if ms / 20000 % 3 = 1 then 0
    else o.toNat * (ms % 20000) / 20000
  have hmag : ∀ ms, mag ms ≤ o.toNat := by
    intro ms
    have h1 : o.toNat * (20000 - ms % 20000) ≤ o.toNat * 20000 :=
      Nat.mul_le_mul_left _ (by omega)
    have h2 : o.toNat * (ms % 20000) ≤ o.toNat * 20000 := Nat.mul_le_mul_left _ (by omega)
    simp only [mag]
    split
    · omega
    · split <;> omega
  have hstep : ∀ ms, mag (ms + 1) ≤ mag ms + 1 ∧ mag ms ≤ mag (ms + 1) + 1 := by
    intro ms
    simp only [mag]
    by_cases hb : ms % 20000 = 19999
    · have e1 : (ms + 1) % 20000 = 0 := by omega
      have e2 : (ms + 1) / 20000 = ms / 20000 + 1 := by omega
      rw [e1, e2, hb]
      have : (ms / 20000 + 1) % 3 = (ms / 20000 % 3 + 1) % 3 := by omega
      rw [this]
      have : ms / 20000 % 3 < 3 := Nat.mod_lt _ (by decide)
      generalize ms / 20000 % 3 = ph at *
      have : ph = 0 ∨ ph = 1 ∨ ph = 2 := by omega
      rcases this with rfl | rfl | rfl <;> simp <;> omega
    · have e1 : (ms + 1) % 20000 = ms % 20000 + 1 := by omega
      have e2 : (ms + 1) / 20000 = ms / 20000 := by omega
      have hlt : ms % 20000 < 20000 := Nat.mod_lt _ (by decide)
      rw [e1, e2]
      generalize ms / 20000 % 3 = ph at *
      generalize ms % 20000 = e at *
      have m1 : o.toNat * (20000 - e) = o.toNat * (20000 - (e + 1)) + o.toNat := by
        rw [← Nat.mul_succ]; congr 1; omega
      have m2 : o.toNat * (e + 1) = o.toNat * e + o.toNat := Nat.mul_succ ..
      rw [m1, m2]
      split
      · omega
      · split <;> omega
  refine ⟨fun ms => if o.toNat < 256 then -(mag ms : Int) else mag ms, ?_, ?_, ?_, ?_⟩
  · intro t
    have hph : ∀ k : Nat, k < 3 → ((t / Effects.kPeriodMs) % 3 = BitVec.ofNat 32 k ↔
        t.toNat / 20000 % 3 = k) := by
      intro k hk
      rw [← BitVec.toNat_inj, BitVec.toNat_umod, BitVec.toNat_udiv, BitVec.toNat_ofNat,
        Nat.mod_eq_of_lt (a := k) (by omega)]
      rfl
    have h0 : (t / Effects.kPeriodMs) % 3 = 0 ↔ t.toNat / 20000 % 3 = 0 := hph 0 (by decide)
    have h1 : (t / Effects.kPeriodMs) % 3 = 1 ↔ t.toNat / 20000 % 3 = 1 := hph 1 (by decide)
    have hk : Effects.kPeriodMs.toNat = 20000 := rfl
    have hel : (t - t / Effects.kPeriodMs * Effects.kPeriodMs).toNat = t.toNat % 20000 := by
      have hm : (t / Effects.kPeriodMs * Effects.kPeriodMs).toNat =
          t.toNat / 20000 * 20000 := by
        rw [BitVec.toNat_mul, BitVec.toNat_udiv, hk]
        have := t.isLt
        omega
      rw [BitVec.toNat_sub, hm]
      have := t.isLt
      omega
    have hre : (Effects.kPeriodMs - (t - t / Effects.kPeriodMs * Effects.kPeriodMs)).toNat =
        20000 - t.toNat % 20000 := by
      rw [BitVec.toNat_sub, hel, hk]
      omega
    have hof : o < Effects.kBlinkPeriod / 4 ↔ o.toNat < 256 := Iff.rfl
    have hquot : ∀ x : U32, x.toNat ≤ 20000 →
        o * x / Effects.kPeriodMs = BitVec.ofNat 32 (o.toNat * x.toNat / 20000) := by
      intro x hx
      have hb : o.toNat * x.toNat ≤ 512 * 20000 := Nat.mul_le_mul (by omega) hx
      apply BitVec.eq_of_toNat_eq
      rw [BitVec.toNat_udiv, BitVec.toNat_mul, BitVec.toNat_ofNat, hk]
      omega
    simp only [Effects.fireflyTime, h0, h1, hof, mag]
    rw [hquot _ (by rw [hre]; omega), hquot _ (by rw [hel]; omega), hre, hel]
    have hneg : ∀ n : Nat, t - BitVec.ofNat 32 n = t + BitVec.ofInt 32 (-(n : Int)) := by
      intro n
      rw [BitVec.ofInt_neg, BitVec.ofInt_natCast, BitVec.sub_eq_add_neg]
    split
    · split
      · exact hneg _
      · rw [BitVec.ofInt_natCast]
    · split
      · split <;> simp
      · split
        · exact hneg _
        · rw [BitVec.ofInt_natCast]
  · intro ms
    have := hmag ms
    simp only []
    split <;> omega
  · intro ms
    have := hstep ms
    simp only []
    split <;> omega
  · intro ms h
    have : mag ms = 0 := by simp [mag, h]
    simp [this]

example : Effects.fireflyTime 100 5000 = 5000 - 75 ∧ Effects.fireflyTime 400 45000 = 45000 + 100 ∧
    Effects.fireflyTime 400 30000 = 30000 := by decide

/-! ## C66: contrast bumps -/

/-- C66: the contrast effect's value is 64 or between 96 and 223. -/
theorem contrast_never_dark {F : FastLED} (hF : F.Lawful) (plat : Platform) (led : U8) (t : U32)
    (strip : Strip) (pkt : Packet) (rng : U16) (hled : led < strip.count)
    (hpkt : NamesPalette plat pkt) :
    ∃ c : CHSV, Effect.contrastBumps.getColour F plat led t strip pkt rng = .ok (.hsv c, rng) ∧
      (c.v.toNat = 64 ∨ 96 ≤ c.v.toNat ∧ c.v.toNat ≤ 223) := by
  obtain ⟨p, hp, hmem⟩ := paletteOf_ok hpkt
  obtain ⟨l, c, hm, -, -, hc0, -⟩ := mirrored_coordinate (strip := strip) hled
  have fin : ∀ off : U8, ∃ col : CHSV, Except.map (·, rng) (do
      let sin := getThresholdSin F (((-(t / 16 + off.setWidth 32)) <<< 8).setWidth 16) 0
      let colorIndex : U16 := (t * 16).setWidth 16
      if sin = 0 then
        let color ← p.getGradient F colorIndex
        return .hsv { color with v := 64 }
      else
        let color ← p.getGradient F (colorIndex + 0x4000)
        return .hsv { color with v := F.qadd8 (sin / 2) 96 }) = Except.ok (Colour.hsv col, rng) ∧
      (col.v.toNat = 64 ∨ 96 ≤ col.v.toNat ∧ col.v.toNat ≤ 223) := by
    intro off
    obtain ⟨c1, h1⟩ := getGradient_ok hmem F ((t * 16).setWidth 16) true
    obtain ⟨c2, h2⟩ := getGradient_ok hmem F ((t * 16).setWidth 16 + 0x4000) true
    simp only [bind, Except.bind, h1, h2, pure, Except.pure]
    generalize getThresholdSin F (((-(t / 16 + off.setWidth 32)) <<< 8).setWidth 16) 0 = sin
    split
    · exact ⟨_, rfl, Or.inl rfl⟩
    · refine ⟨_, rfl, Or.inr ?_⟩
      have hq := hF.qadd8 (sin / 2) 96
      have hs := sin.isLt
      rw [BitVec.toNat_udiv, show (2 : U8).toNat = 2 from rfl,
        show (96 : U8).toNat = 96 from rfl] at hq
      simp only []
      omega
  simp only [Effect.getColour, Effects.contrastBumps, bind, Except.bind, hp, hm]
  split
  · simp only [divNat, if_neg (Nat.ne_of_gt hc0)]
    exact fin _
  · exact fin _

/-! ## C67: Rorschach -/

/-- C67: LEDs at equal distance from the centre of the strip show the same colour. -/
theorem rorschach_symmetric (F : FastLED) (plat : Platform) (o : U16) (i j : U8) (t : U32)
    (strip : Strip) (pkt : Packet) (rng : U16)
    (h : ((i.toNat : Int) - (strip.count.toNat / 2 : Nat)).natAbs =
      ((j.toNat : Int) - (strip.count.toNat / 2 : Nat)).natAbs) :
    (Effect.rorschach o).getColour F plat i t strip pkt rng =
      (Effect.rorschach o).getColour F plat j t strip pkt rng := by
  simp only [Effect.getColour, Effects.rorschach, h]

example : ((3 : Int) - (24 / 2 : Nat)).natAbs = ((21 : Int) - (24 / 2 : Nat)).natAbs := by decide

/-! ## C65: brightness limits -/

/-- The value of the colour, if there is one, is at most `n`. -/
def Bounded (g : β → Colour) (n : Nat) (x : Except Fault β) : Prop :=
  ∀ b, x = .ok b → ∀ c, g b = .hsv c → c.v.toNat ≤ n

theorem Bounded.bind {g : β → Colour} {n : Nat} {x : Except Fault α} {f : α → Except Fault β}
    (h : ∀ a, x = .ok a → Bounded g n (f a)) : Bounded g n (x >>= f) := by
  cases x with
  | error => intro b hb; cases hb
  | ok a => exact h a rfl

theorem Bounded.ite {g : β → Colour} {n : Nat} {p : Prop} [Decidable p] {x y : Except Fault β}
    (hx : p → Bounded g n x) (hy : ¬ p → Bounded g n y) :
    Bounded g n (if p then x else y) := by
  split
  · exact hx ‹_›
  · exact hy ‹_›

theorem Bounded.ok {g : β → Colour} {n : Nat} {b : β} (h : ∀ c, g b = .hsv c → c.v.toNat ≤ n) :
    Bounded g n (.ok b) := by
  intro b' hb; cases hb; exact h

theorem Bounded.of_map {n : Nat} {x : Except Fault Colour} {rng rng' : U16} {c : CHSV}
    (hx : Bounded id n x) (h : x.map (·, rng) = .ok (.hsv c, rng')) : c.v.toNat ≤ n := by
  cases x with
  | error => cases h
  | ok b => cases h; exact hx _ rfl c rfl

/-- C65: on a strip without the Bright flag the value of every effect stays within its limit. -/
theorem value_limits {F : FastLED} (hF : F.Lawful) (plat : Platform) (e : Effect) (led : U8)
    (t : U32) (strip : Strip) (pkt : Packet) (rng : U16)
    (hb : strip.flagEnabled .bright = false) {c : CHSV} {rng' : U16}
    (h : e.getColour F plat led t strip pkt rng = .ok (.hsv c, rng')) :
    c.v.toNat ≤ valueLimit e (palettes.getD pkt.data[2].toNat []).length
      (strip.flagEnabled .tiny) := by
  have hpal : ∀ p, paletteOf plat pkt = .ok p → palettes.getD pkt.data[2].toNat [] = p := by
    intro p hp
    simp only [paletteOf, bind, Except.bind] at hp
    split at hp
    · cases hp
    · rename_i i hi
      have : i = pkt.data[2] := by
        cases plat with
        | arduino => cases hi; rfl
        | host =>
          simp only [Packet.readPaletteIndexFromSetEffect, bind, Except.bind, pure,
            Except.pure] at hi
          split at hi
          · cases hi
          · split at hi
            · cases hi
            · cases hi; rfl
      subst this
      simp only [vecGet] at hp
      split at hp
      · cases hp; rename_i hs; rw [List.getD_eq_getElem?_getD, hs]; rfl
      · cases hp
  have hhalf : ∀ (c : CHSV), (c.v / 2).toNat ≤ 127 := by
    intro c
    rw [BitVec.toNat_udiv, show (2 : U8).toNat = 2 from rfl]
    have := c.v.isLt
    omega
  have hthird : ∀ w : U8, (BitVec.ofNat 8 (w.toNat * 2 / 3) : U8).toNat ≤ 170 := by
    intro w
    have := w.isLt
    rw [BitVec.toNat_ofNat, Nat.mod_eq_of_lt (by omega)]
    omega
  have hsize : ∀ p, p ∈ palettes → (p.size < 2 ↔ p.length < 2) := by
    intro p hp
    have := (palettes_small p hp).2
    rw [BitVec.lt_def, Palette.size, BitVec.toNat_ofNat, show (2 : U8).toNat = 2 from rfl]
    omega
  have hany : ∀ c : CHSV, c.v.toNat ≤ 255 := fun c => by have := c.v.isLt; omega
  cases e with
  | colorCycle =>
    have h : (Effects.colorCycle F plat t strip pkt).map (·, rng) = .ok (.hsv c, rng') := h
    refine Bounded.of_map ?_ h
    unfold Effects.colorCycle
    refine Bounded.bind fun p hp => ?_
    rw [hpal p hp]
    have hs := hsize p (paletteOf_mem hp)
    show Bounded id (if p.length < 2 then 170 else 127) _
    refine Bounded.ite (fun h1 => ?_) (fun h1 => ?_)
    · rw [if_pos (hs.1 h1)]
      refine Bounded.bind fun c hc => ?_
      rw [if_neg (by simp [hb])]
      exact Bounded.ok fun c' h' => by cases h'; exact hthird _
    · rw [if_neg (mt hs.2 h1)]
      refine Bounded.bind fun c hc => ?_
      rw [if_pos (by simp [hb])]
      exact Bounded.ok fun c' h' => by cases h'; exact hhalf _
  | rainbow =>
    have h : (Effects.rainbow F plat led t strip pkt).map (·, rng) = .ok (.hsv c, rng') := h
    refine Bounded.of_map ?_ h
    unfold Effects.rainbow
    refine Bounded.bind fun p hp => ?_
    rw [hpal p hp]
    have hs := hsize p (paletteOf_mem hp)
    show Bounded id (if 2 ≤ p.length then 128 else if strip.flagEnabled .tiny then 255 else 170) _
    refine Bounded.ite (fun h1 => ?_) (fun h1 => ?_)
    · rw [if_neg (by have := hs.1 h1; omega)]
      refine Bounded.ite (fun h2 => ?_) (fun h2 => ?_)
      · rw [if_pos h2]
        refine Bounded.bind fun c hc => ?_
        exact Bounded.ok fun c' h' => hany _
      · rw [if_neg h2]
        refine Bounded.bind fun c hc => ?_
        rw [if_neg (by simp [hb])]
        exact Bounded.ok fun c' h' => by cases h'; exact hthird _
    · rw [if_pos (by have := mt hs.2 h1; omega)]
      refine Bounded.ite (fun h2 => ?_) (fun h2 => ?_)
      · refine Bounded.bind fun c hc => ?_
        exact Bounded.ok fun c' h' => by cases h'; simp [hb]
      · refine Bounded.bind fun c hc => ?_
        exact Bounded.ok fun c' h' => by cases h'; simp [hb]
  | displayColorPalette =>
    have h : (Effects.displayColorPalette F plat led t strip pkt).map (·, rng) = .ok (.hsv c, rng') := h
    refine Bounded.of_map ?_ h
    unfold Effects.displayColorPalette
    refine Bounded.bind fun p hp => ?_
    have fin : ∀ x : CHSV, Bounded id 127
        (if ¬ strip.flagEnabled .bright = true then .ok (Colour.hsv { x with v := x.v / 2 })
          else .ok (Colour.hsv x)) := by
      intro x
      rw [if_pos (by simp [hb])]
      exact Bounded.ok fun c' h' => by cases h'; exact hhalf _
    refine Bounded.ite (fun _ => ?_) (fun _ => ?_)
    · exact Bounded.bind fun c hc => fin c
    · exact Bounded.bind fun q hq => Bounded.bind fun c hc => fin c
  | simpleBlink s =>
    have h : (Effects.simpleBlink F plat s t strip pkt).map (·, rng) = .ok (.hsv c, rng') := h
    refine Bounded.of_map ?_ h
    unfold Effects.simpleBlink
    show Bounded id 127 _
    refine Bounded.ite (fun _ => ?_) (fun _ => ?_)
    · intro b hb; cases hb
    · refine Bounded.ite (fun _ => ?_) (fun _ => ?_)
      · refine Bounded.bind fun p hp => ?_
        refine Bounded.bind fun c hc => ?_
        rw [if_pos (by simp [hb])]
        exact Bounded.ok fun c' h' => by cases h'; exact hhalf _
      · exact Bounded.ok fun c' h' => by cases h'
  | contrastBumps =>
    have h : (Effects.contrastBumps F plat led t strip pkt).map (·, rng) = .ok (.hsv c, rng') := h
    refine Bounded.of_map ?_ h
    unfold Effects.contrastBumps
    refine Bounded.bind fun p hp => ?_
    refine Bounded.bind fun lc hl => ?_
    obtain ⟨l, n⟩ := lc
    have fin : ∀ off : U8, Bounded id 223 (do
        let sin := getThresholdSin F (((-(t / 16 + off.setWidth 32)) <<< 8).setWidth 16) 0
        let colorIndex : U16 := (t * 16).setWidth 16
        if sin = 0 then
          let color ← p.getGradient F colorIndex
          return .hsv { color with v := 64 }
        else
          let color ← p.getGradient F (colorIndex + 0x4000)
          return .hsv { color with v := F.qadd8 (sin / 2) 96 } : Except Fault Colour) := by
      intro off
      refine Bounded.ite (fun _ => ?_) (fun _ => ?_)
      · refine Bounded.bind fun c hc => ?_
        exact Bounded.ok fun c' h' => by cases h'; show (64 : U8).toNat ≤ 223; decide
      · refine Bounded.bind fun c hc => ?_
        refine Bounded.ok fun c' h' => ?_
        cases h'
        generalize getThresholdSin F _ _ = sin
        simp only [hF.qadd8, BitVec.toNat_udiv, show (2 : U8).toNat = 2 from rfl,
          show (96 : U8).toNat = 96 from rfl]
        have := sin.isLt
        omega
    refine Bounded.ite (fun _ => ?_) (fun _ => ?_)
    · refine Bounded.bind fun q _ => fin _
    · exact fin _
  | firefly o =>
    have h : (Effects.firefly F plat o led t strip pkt).map (·, rng) = .ok (.hsv c, rng') := h
    refine Bounded.of_map ?_ h
    unfold Effects.firefly
    have fin : ∀ off : U32, Bounded id 127 (do
        let adjusted := Effects.fireflyTime off t
        let curve := (F.sin16 ((adjusted * Effects.kSinMultiplier).setWidth 16)).toInt
        let curve := if curve < 0 then 0 else curve
        let palette ← paletteOf plat pkt
        let color ← palette.getGradient F (((t / Effects.kBlinkPeriod) <<< 8).setWidth 16)
        return .hsv { color with v := BitVec.ofInt 8 (curve.tdiv 256) } : Except Fault Colour) := by
      intro off
      refine Bounded.bind fun p hp => ?_
      refine Bounded.bind fun c hc => ?_
      refine Bounded.ok fun c' h' => ?_
      cases h'
      have hlt := (F.sin16 ((Effects.fireflyTime off t *
        Effects.kSinMultiplier).setWidth 16)).toInt_lt
      generalize (F.sin16 _).toInt = s at *
      have key : ∀ s' : Int, 0 ≤ s' → s' < 32768 → (BitVec.ofInt 8 (s'.tdiv 256)).toNat ≤ 127 := by
        intro s' h0 h1
        rw [Int.tdiv_eq_ediv_of_nonneg h0, BitVec.toNat_ofInt]
        omega
      exact key _ (by split <;> omega) (by split <;> omega)
    refine Bounded.ite (fun _ => ?_) (fun _ => ?_)
    · exact Bounded.ok fun c' h' => by cases h'
    · refine Bounded.ite (fun _ => ?_) (fun _ => fin _)
      refine Bounded.ite (fun _ => ?_) (fun _ => fin _)
      intro b hb; cases hb
  | fire o =>
    have h : Effects.fire F o led t strip rng = .ok (.hsv c, rng') := h
    refine (?_ : Bounded Prod.fst _ _) _ h c rfl
    unfold Effects.fire
    refine Bounded.bind fun lc hl => ?_
    obtain ⟨l, n⟩ := lc
    have fin : ∀ x : U8 × U16, Bounded Prod.fst 192 (do
        let color ← Palette.getGradient F Effects.firePalette (x.1.setWidth 16 <<< 8) false
        return (Colour.hsv color, x.2) : Except Fault (Colour × U16)) := by
      intro x
      refine Bounded.bind fun c hc => ?_
      refine Bounded.ok fun c' h' => ?_
      cases h'
      exact (gradient_value_range hF (by decide) (by decide) (lo := 0) (hi := 192)
        (by decide) hc).2
    refine Bounded.ite (fun _ => ?_) (fun _ => ?_)
    · refine Bounded.bind fun q _ => ?_
      obtain ⟨angle, radius⟩ := q
      exact fin (_, _)
    · exact fin (_, _)
  | rorschach o =>
    have h : Effects.rorschach F plat o led t strip pkt rng = .ok (.hsv c, rng') := h
    refine (?_ : Bounded Prod.fst _ _) _ h c rfl
    unfold Effects.rorschach
    refine Bounded.bind fun p hp => ?_
    rw [hpal p hp]
    have hs := hsize p (paletteOf_mem hp)
    show Bounded Prod.fst (if p.length < 2 then 255 else 127) _
    refine Bounded.ite (fun h1 => ?_) (fun h1 => ?_)
    · rw [if_pos (hs.1 h1)]
      refine Bounded.bind fun c hc => ?_
      exact Bounded.ok fun c' h' => hany _
    · rw [if_neg (mt hs.2 h1)]
      refine Bounded.bind fun c hc => ?_
      rw [if_pos (by simp [hb])]
      exact Bounded.ok fun c' h' => by cases h'; exact hhalf _
  | _ => exact hany c

/-- C65: the common limit of one half (or two thirds) is not respected by the rainbow on tiny
strips with a palette of one colour: it shows the palette's own value, whatever the library. -/
theorem tiny_rainbow_exceeds_limit (F : FastLED) (plat : Platform) (led : U8) (t : U32)
    (rng : U16) (count : U8) :
    (Effect.rainbow.getColour F plat led t (Strip.new count [.tiny])
      { id := 1, type := .setEffect, len := 3, data := Vector.replicate 58 0 } rng) =
      .ok (.hsv ⟨0, 255, 255⟩, rng) := by
  have hp : paletteOf plat
      { id := 1, type := .setEffect, len := 3, data := Vector.replicate 58 0 } =
      .ok [⟨0, 255, 255⟩] := by cases plat <;> decide
  show (Effects.rainbow F plat led t _ _).map (·, rng) = _
  have h1 : (Strip.new count [.tiny]).flagEnabled .tiny = true := by
    rw [flag_enabled_iff_listed]; simp
  have h2 : Palette.size [⟨0, 255, 255⟩] < 2 := by decide
  simp only [Effects.rainbow, hp, bind, Except.bind, h1, if_true, if_pos h2]
  rfl

example : (Strip.new 10 [.tiny]).flagEnabled .bright = false := by decide

/-- C65: the Rorschach effect does not dim palettes of one colour. -/
theorem rorschach_exceeds_limit :
    ∃ led t strip pkt c rng', strip.flagEnabled .bright = false ∧
      (Effect.rorschach 0).getColour FastLED.reference .host led t strip pkt 0 =
        .ok (.hsv c, rng') ∧ c.v = 252 :=
  ⟨5, 8399, Strip.new 10 [],
    { id := 1, type := .setEffect, len := 3, data := Vector.replicate 58 0 }, ⟨0, 255, 252⟩,
    10182, by decide +kernel⟩

/-! ## C68: pride stripes -/

theorem pride_colours : ∀ st < 6, (Effects.pridePalette.getColor (BitVec.ofNat 8 st - 1) =
      .ok (if st = 0 then prideFlag[3] else prideFlag[(st - 1) % 6])) ∧
    Effects.pridePalette.getColor (BitVec.ofNat 8 st) = .ok (prideFlag[st % 6]) := by decide

theorem pride_core (F : FastLED) (count fade idx : Nat) (hc : 1 ≤ count) (hc' : count < 256)
    (hf : fade ≤ count) (hidx : idx < count * 48) :
    (let vIndex : U16 := BitVec.ofNat 16 idx
    let width : U16 := BitVec.ofNat 16 (count * 8)
    let size := Effects.pridePalette.size
    let colorIndex : U8 := BitVec.ofNat 8 (vIndex.toNat / width.toNat % size.toNat)
    let colorAmount : U16 := vIndex % width
    if colorAmount < BitVec.ofNat 16 fade then do
      let a ← Effects.pridePalette.getColor (colorIndex - 1)
      let b ← Effects.pridePalette.getColor colorIndex
      return Colour.hsv (F.blend a b
        (BitVec.ofNat 8 (colorAmount.toNat * 255 / (BitVec.ofNat 16 fade : U16).toNat)))
    else do
      let b ← Effects.pridePalette.getColor colorIndex
      return Colour.hsv b : Except Fault Colour) = .ok (.hsv (prideColour F count fade idx)) := by
  have h6 : Effects.pridePalette.size.toNat = 6 := rfl
  have e1 : (BitVec.ofNat 16 idx : U16).toNat = idx := by rw [BitVec.toNat_ofNat]; omega
  have e2 : (BitVec.ofNat 16 (count * 8) : U16).toNat = count * 8 := by
    rw [BitVec.toNat_ofNat]; omega
  have e3 : (BitVec.ofNat 16 fade : U16).toNat = fade := by rw [BitVec.toNat_ofNat]; omega
  simp only [h6, e1, e2, e3, BitVec.lt_def, BitVec.toNat_umod, prideColour, Nat.mul_comm 8 count]
  have hst : idx / (count * 8) < 6 := by
    rw [Nat.div_lt_iff_lt_mul (by omega)]; omega
  have hst' : (BitVec.ofNat 8 (idx / (count * 8) % 6) : U8) = BitVec.ofNat 8 (idx / (count * 8)) := by
    rw [Nat.mod_eq_of_lt hst]
  rw [hst']
  obtain ⟨a1, a2⟩ := pride_colours _ hst
  rw [a1, a2]
  simp only [bind, Except.bind, pure, Except.pure]
  split <;> rfl

/-- C68 (strips that are not tiny): the six stripes together are as long as the strip (an LED
is 48 units long, a stripe `8 * count` units) and move by one unit every 8 ms; the first eighth
of each stripe fades from the previous colour - except that the first stripe fades from the
fourth colour instead of the sixth. -/
theorem pride_stripes (F : FastLED) (plat : Platform) (led : U8) (t : U32) (strip : Strip)
    (pkt : Packet) (rng : U16) (hled : led < strip.count)
    (htiny : strip.flagEnabled .tiny = false) :
    Effect.pride.getColour F plat led t strip pkt rng = .ok (.hsv (
      prideColour F strip.count.toNat strip.count.toNat
        ((led.toNat * 48 + t.toNat / 8) % (strip.count.toNat * 48))), rng) := by
  show (Effects.pride F led t strip).map (·, rng) = _
  have hc1 : 1 ≤ strip.count.toNat := by rw [BitVec.lt_def] at hled; omega
  have hc2 := strip.count.isLt
  have hl2 := led.isLt
  have ht := t.isLt
  have key := pride_core F strip.count.toNat strip.count.toNat
    ((led.toNat * 48 + t.toNat / 8) % (strip.count.toNat * 48)) hc1 hc2 (Nat.le_refl _)
    (Nat.mod_lt _ (by omega))
  have hlt : led.toNat * 8 * 6 + t.toNat / 8 < 2 ^ 32 := by omega
  have hv : (((BitVec.ofNat 32 (led.toNat * 8 * 6) + t / 8) %
      BitVec.ofNat 32 (strip.count.toNat * 8 * 6) : U32).setWidth 16 : U16) =
      BitVec.ofNat 16 ((led.toNat * 48 + t.toNat / 8) % (strip.count.toNat * 48)) := by
    have h8 : (8 : U32).toNat = 8 := rfl
    apply BitVec.eq_of_toNat_eq
    rw [BitVec.toNat_setWidth, BitVec.toNat_umod, BitVec.toNat_add, BitVec.toNat_udiv,
      BitVec.toNat_ofNat, BitVec.toNat_ofNat, BitVec.toNat_ofNat, h8,
      Nat.mod_eq_of_lt (a := led.toNat * 8 * 6) (by omega),
      Nat.mod_eq_of_lt (a := led.toNat * 8 * 6 + _) hlt,
      Nat.mod_eq_of_lt (a := strip.count.toNat * 8 * 6) (by omega)]
    rw [show led.toNat * 8 * 6 = led.toNat * 48 by omega,
      show strip.count.toNat * 8 * 6 = strip.count.toNat * 48 by omega]
  have hw : (BitVec.ofNat 16 (strip.count.toNat * 8) : U16).toNat = strip.count.toNat * 8 := by
    rw [BitVec.toNat_ofNat]; omega
  have hf : (BitVec.ofNat 16 (strip.count.toNat * 8) / 8 : U16) =
      BitVec.ofNat 16 strip.count.toNat := by
    apply BitVec.eq_of_toNat_eq
    rw [BitVec.toNat_udiv, hw, BitVec.toNat_ofNat, show (8 : U16).toNat = 8 from rfl]
    omega
  have h6 : Effects.pridePalette.size.toNat = 6 := rfl
  have hz : ¬ (BitVec.ofNat 32 (strip.count.toNat * 8 * 6) : U32) = 0 := by
    intro h
    have := congrArg BitVec.toNat h
    rw [BitVec.toNat_ofNat, show (0 : U32).toNat = 0 from rfl] at this
    omega
  simp only [hw, h6] at key
  simp only [Effects.pride, htiny, Bool.false_eq_true, if_false, hw, h6, if_neg hz, hv, hf, key]
  rfl

/-- C68 (tiny strips): all LEDs show the same, twice as fast, with fades half as wide. -/
theorem pride_stripes_tiny (F : FastLED) (plat : Platform) (led : U8) (t : U32) (strip : Strip)
    (pkt : Packet) (rng : U16) (hled : led < strip.count)
    (htiny : strip.flagEnabled .tiny = true) :
    Effect.pride.getColour F plat led t strip pkt rng = .ok (.hsv (
      prideColour F strip.count.toNat (strip.count.toNat / 2)
        (t.toNat * 2 % 2 ^ 32 / 8 % (strip.count.toNat * 48))), rng) := by
  show (Effects.pride F led t strip).map (·, rng) = _
  have hc1 : 1 ≤ strip.count.toNat := by rw [BitVec.lt_def] at hled; omega
  have hc2 := strip.count.isLt
  have ht := t.isLt
  have key := pride_core F strip.count.toNat (strip.count.toNat / 2)
    (t.toNat * 2 % 2 ^ 32 / 8 % (strip.count.toNat * 48)) hc1 hc2 (by omega)
    (Nat.mod_lt _ (by omega))
  have hv : (((BitVec.ofNat 32 ((0 : U8).toNat * 8 * 6) + t * 2 / 8) %
      BitVec.ofNat 32 (strip.count.toNat * 8 * 6) : U32).setWidth 16 : U16) =
      BitVec.ofNat 16 (t.toNat * 2 % 2 ^ 32 / 8 % (strip.count.toNat * 48)) := by
    have h8 : (8 : U32).toNat = 8 := rfl
    have h2 : (2 : U32).toNat = 2 := rfl
    have h0 : (BitVec.ofNat 32 ((0 : U8).toNat * 8 * 6) : U32).toNat = 0 := rfl
    apply BitVec.eq_of_toNat_eq
    rw [BitVec.toNat_setWidth, BitVec.toNat_umod, BitVec.toNat_add, BitVec.toNat_udiv,
      BitVec.toNat_mul, h0, BitVec.toNat_ofNat, BitVec.toNat_ofNat, h8, h2, Nat.zero_add,
      Nat.mod_eq_of_lt (a := strip.count.toNat * 8 * 6) (by omega),
      Nat.mod_eq_of_lt (a := t.toNat * 2 % 2 ^ 32 / 8) (by omega)]
    rw [show strip.count.toNat * 8 * 6 = strip.count.toNat * 48 by omega]
  have hw : (BitVec.ofNat 16 (strip.count.toNat * 8) : U16).toNat = strip.count.toNat * 8 := by
    rw [BitVec.toNat_ofNat]; omega
  have hf : (BitVec.ofNat 16 (strip.count.toNat * 8) / 8 / 2 : U16) =
      BitVec.ofNat 16 (strip.count.toNat / 2) := by
    apply BitVec.eq_of_toNat_eq
    rw [BitVec.toNat_udiv, BitVec.toNat_udiv, hw, BitVec.toNat_ofNat,
      show (8 : U16).toNat = 8 from rfl, show (2 : U16).toNat = 2 from rfl]
    omega
  have h6 : Effects.pridePalette.size.toNat = 6 := rfl
  have hz : ¬ (BitVec.ofNat 32 (strip.count.toNat * 8 * 6) : U32) = 0 := by
    intro h
    have := congrArg BitVec.toNat h
    rw [BitVec.toNat_ofNat, show (0 : U32).toNat = 0 from rfl] at this
    omega
  simp only [hw, h6] at key
  simp only [Effects.pride, htiny, if_true, hw, h6, if_neg hz, hv, hf, key]
  rfl

/-- C68: the last stripe before the first one is violet, but the first stripe fades from green. -/
theorem pride_first_stripe_fades_from_fourth (F : FastLED) (count : Nat) (hc : 1 ≤ count)
    (into : Nat) (h : into < count) :
    prideColour F count count into =
      F.blend prideFlag[3] prideFlag[0] (BitVec.ofNat 8 (into * 255 / count)) ∧
    prideColour F count count (count * 48 - 1) = prideFlag[5] := by
  have h1 : into / (8 * count) = 0 := Nat.div_eq_of_lt (by omega)
  have h2 : into % (8 * count) = into := Nat.mod_eq_of_lt (by omega)
  have h3 : (count * 48 - 1) / (8 * count) = 5 := by
    rw [Nat.div_eq_iff (by omega)]; omega
  have h4 : (count * 48 - 1) % (8 * count) = 8 * count - 1 := by
    have := Nat.div_add_mod (count * 48 - 1) (8 * count)
    rw [h3] at this
    omega
  constructor
  · simp only [prideColour, h1, h2, if_pos h, if_true]
  · simp only [prideColour, h3, h4]
    rw [if_neg (by omega)]

example : (prideColour FastLED.reference 10 10 5).h = 42 ∧
    (prideColour FastLED.reference 10 10 479).h = 206 := by decide +kernel

/-! ## C70: thresholded sine -/

/-- C70: the thresholded sine is the excess of the scaled sine (-255..255) over the threshold,
scaled to the range 0..255; nothing wraps around. -/
theorem thresholdSin_value (F : FastLED) (x : U16) (threshold : U8) :
    (getThresholdSin F x threshold).toNat =
      ((F.sin16 x).toInt.tdiv 128 - threshold.toNat).toNat * 256 / (256 - threshold.toNat) := by
  have hlt := (F.sin16 x).toInt_lt
  have htl := threshold.isLt
  simp only [getThresholdSin]
  have hq : (F.sin16 x).toInt.tdiv 128 ≤ 255 := by
    by_cases hs : 0 ≤ (F.sin16 x).toInt
    · rw [Int.tdiv_eq_ediv_of_nonneg hs]; omega
    · have := Int.tdiv_nonneg (a := -(F.sin16 x).toInt) (b := 128) (by omega) (by decide)
      rw [Int.neg_tdiv] at this
      omega
  generalize (F.sin16 x).toInt.tdiv 128 = q at *
  generalize threshold.toNat = n at *
  split
  · have : (q - n).toNat = 0 := by omega
    simp [this]
  · obtain ⟨k, hk⟩ : ∃ k : Nat, q - n = k := ⟨(q - n).toNat, by omega⟩
    have hd : (256 - n : Int) = ((256 - n : Nat) : Int) := by omega
    have hlt : k * 256 / (256 - n) < 256 := by
      rw [Nat.div_lt_iff_lt_mul (by omega)]
      have : k < 256 - n := by omega
      omega
    have hm : (k : Int) * 256 = ((k * 256 : Nat) : Int) := by omega
    rw [hk, hd, Int.toNat_natCast, hm, ← Int.ofNat_tdiv, BitVec.ofInt_natCast, BitVec.toNat_ofNat]
    exact Nat.mod_eq_of_lt hlt

/-- C70: it is 0 exactly up to the threshold. -/
theorem thresholdSin_zero_iff (F : FastLED) (x : U16) (threshold : U8) :
    getThresholdSin F x threshold = 0 ↔ (F.sin16 x).toInt.tdiv 128 ≤ threshold.toNat := by
  rw [← BitVec.toNat_inj, thresholdSin_value, show (0 : U8).toNat = 0 from rfl]
  have htl := threshold.isLt
  rw [Nat.div_eq_zero_iff]
  omega

/-- C70: it grows with the sine. -/
theorem thresholdSin_monotone (F : FastLED) (x y : U16) (threshold : U8)
    (h : (F.sin16 x).toInt ≤ (F.sin16 y).toInt) :
    getThresholdSin F x threshold ≤ getThresholdSin F y threshold := by
  rw [BitVec.le_def, thresholdSin_value, thresholdSin_value]
  have : (F.sin16 x).toInt.tdiv 128 ≤ (F.sin16 y).toInt.tdiv 128 :=
    Int.tdiv_le_tdiv (by decide) h
  exact Nat.div_le_div_right (Nat.mul_le_mul_right _ (by omega))

example : getThresholdSin FastLED.reference 0x4000 64 = 254 ∧
    getThresholdSin FastLED.reference 0x1000 64 = 44 ∧
    getThresholdSin FastLED.reference 0x0100 64 = 0 ∧
    getThresholdSin FastLED.reference 0xC000 0 = 0 := by decide +kernel

/-! ## C71: mirrored strips -/

/-- C71: on a mirrored strip LEDs at equal distance from the two ends show the same colour. -/
theorem mirrored_effects_symmetric (F : FastLED) (plat : Platform) (e : Effect) (i j : U8)
    (t : U32) (strip : Strip) (pkt : Packet) (rng : U16)
    (hm : strip.flagEnabled .mirrored = true)
    (hij : i.toNat + j.toNat + 1 = strip.count.toNat) (he : Mirrors strip e) :
    e.getColour F plat i t strip pkt rng = e.getColour F plat j t strip pkt rng := by
  have hmi := mirror_symmetric i j strip.count (by omega) hij
  cases e with
  | fire o =>
    show Effects.fire F o i t strip rng = Effects.fire F o j t strip rng
    have he : strip.flagEnabled .circular = false := he
    simp only [Effects.fire, mirrored, hm, if_true, hmi, he, Bool.false_eq_true,
      if_false]
  | police =>
    obtain ⟨h1, h2⟩ := he
    simp only [Effect.getColour, Effects.police, mirrored, hm, if_true, hmi, h1, h2,
      Bool.false_eq_true, if_false, false_and]
  | colorCycle => simp only [Effect.getColour]
  | control => simp only [Effect.getColour]
  | dark => simp only [Effect.getColour]
  | _ =>
    first
      | exact he.elim
      | simp only [Effect.getColour, Effects.contrastBumps, Effects.rainbowBumps, Effects.spark,
          Effects.swingingLights, mirrored, hm, if_true, hmi]

/-- C71: the police lights of a tiny mirrored strip have a left and a right side. -/
example : (Effect.police.getColour FastLED.reference .host 0 0 (Strip.new 10 [.tiny, .mirrored])
    exampleInstruction 0) ≠ (Effect.police.getColour FastLED.reference .host 9 0
    (Strip.new 10 [.tiny, .mirrored]) exampleInstruction 0) := by decide +kernel

/-- Two LEDs of a mirrored strip that show the same, lit colour. -/
example : (Strip.new 30 [.mirrored]).flagEnabled .mirrored = true ∧ 3 + 26 + 1 = 30 ∧
    Effect.rainbowBumps.getColour FastLED.reference .host 26 300 (Strip.new 30 [.mirrored])
      exampleInstruction 0 ≠ .ok (Colour.black, 0) := by decide +kernel

/-! ## C72: colour override and darkness -/

/-- C72: while the current instruction is a colour instruction, every LED shows exactly its
colour (an eighth of it on dim strips, nothing on strips that are off). -/
theorem control_shows_colour {fr : Frame} {strip : Strip} {i : Nat} {t : U32} {c : CRGB}
    (hp : fr.packet.type = .setControl) (h : Shows fr strip i t c) :
    c = if strip.flagEnabled .off then ⟨0, 0, 0⟩
      else if strip.flagEnabled .dim then
        ⟨fr.packet.data[1] / 8, fr.packet.data[2] / 8, fr.packet.data[3] / 8⟩
      else ⟨fr.packet.data[1], fr.packet.data[2], fr.packet.data[3]⟩ := by
  unfold Shows at h
  split at h
  · rw [if_pos ‹_›]; exact h
  · rw [if_neg ‹_›]
    obtain ⟨e, rgb, he, hc, h⟩ := h
    rw [CurrentEffect, if_pos hp] at he
    cases he
    obtain ⟨r', hr⟩ := hc 0
    have : rgb = ⟨fr.packet.data[1], fr.packet.data[2], fr.packet.data[3]⟩ := by
      cases hpl : fr.plat with
      | arduino => rw [hpl] at hr; cases hr; rfl
      | host =>
        rw [hpl] at hr
        by_cases hl : fr.packet.len = 4
        · simp [Effect.getRGB, Effect.getColour, Effects.control, bind, Except.bind,
            Packet.readRgbFromSetControl, hostAssert, hp, hl, Except.map, pure, Except.pure,
            Colour.toRGB] at hr
          exact hr.1.symm
        · have hl' : ¬ fr.packet.len = 4#8 := hl
          simp [Effect.getRGB, Effect.getColour, Effects.control, bind, Except.bind,
            Packet.readRgbFromSetControl, hostAssert, hp, hl', Except.map] at hr
    rw [h, this]

/-- C72: a colour instruction always has a picture. -/
theorem control_defined {fr : Frame} (hp : fr.packet.type = .setControl)
    (hl : fr.plat = .host → fr.packet.len = 4) (strip : Strip) (i : Nat) (t : U32) :
    ∃ c, Shows fr strip i t c := by
  unfold Shows
  split
  · exact ⟨_, rfl⟩
  · refine ⟨_, .control, ⟨fr.packet.data[1], fr.packet.data[2], fr.packet.data[3]⟩,
      by rw [CurrentEffect, if_pos hp], fun rng => ⟨rng, ?_⟩, rfl⟩
    cases hpl : fr.plat with
    | arduino => rfl
    | host =>
      simp [Effect.getRGB, Effect.getColour, Effects.control, bind, Except.bind,
        Packet.readRgbFromSetControl, hostAssert, hp, hl hpl, Except.map, pure, Except.pure,
        Colour.toRGB]

example : ∃ fr : Frame, fr.packet.type = .setControl ∧ fr.plat = .host ∧ fr.packet.len = 4 :=
  ⟨{ exampleFrame with packet := exampleFrame.packet.writeControl 5 ⟨1, 2, 3⟩ }, rfl, rfl, rfl⟩

/-- C72: under the dark effect every LED is black. -/
theorem dark_shows_black {fr : Frame} {strip : Strip} {i : Nat} {t : U32} {c : CRGB}
    (hd : CurrentEffect fr.plat fr.registry fr.packet .dark)
    (h : Shows fr strip i t c) : c = ⟨0, 0, 0⟩ := by
  unfold Shows at h
  split at h
  · exact h
  · obtain ⟨e, rgb, he, hc, h⟩ := h
    rw [getCurrentEffect_iff] at hd he
    rw [hd] at he
    cases he
    obtain ⟨r', hr⟩ := hc 0
    cases hr
    rw [h]
    split
    · show (⟨0 / 8, 0 / 8, 0 / 8⟩ : CRGB) = _; decide
    · rfl

example : ∃ r, shippedRegistry .host ⟨0, 0, 0⟩ = .ok r ∧
    CurrentEffect .host r
      { id := 1, type := .setEffect, len := 3, data := (Vector.replicate 58 0).set 0 34 }
      .dark := by
  refine ⟨_, rfl, ?_⟩
  rw [getCurrentEffect_iff]
  decide +kernel

end Firefly.Props
