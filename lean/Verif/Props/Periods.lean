import Verif.Props.Patterns
import Verif.Spec.Motion
import Verif.Lemmas.Bits

/-! # Effects repeat: periods of the patterns (C100) -/

namespace Firefly.Props
open Firefly Spec

/-! ## C100 -/

/-- C100: after one period the LED shows the same colour again, as long as the clock has not
outgrown the effect's arithmetic. -/
theorem effects_repeat (F : FastLED) (plat : Platform) (e : Effect) (led : U8) (t t' : U32)
    (strip : Strip) (pkt : Packet) (rng : U16) (hled : led < strip.count) {P k : Nat}
    (hP : period strip e = some (P, k)) (ht : t'.toNat = t.toNat + P)
    (hk : t'.toNat * k < 2 ^ 32) :
    e.getColour F plat led t' strip pkt rng = e.getColour F plat led t strip pkt rng := by
  cases e with
  | control => rfl
  | dark => rfl
  | colorCycle =>
    cases hP
    have h1 : (t' / 16).toNat % 256 = (t / 16).toNat % 256 := by
      rw [div_toNat, div_toNat, show (16 : U32).toNat = 16 from rfl]; omega
    simp only [Effect.getColour, Effects.colorCycle, low8 h1, shl8 h1]
  | rainbow =>
    cases hP
    have h1 : (t' / 16).toNat % 256 = (t / 16).toNat % 256 := by
      rw [div_toNat, div_toNat, show (16 : U32).toNat = 16 from rfl]; omega
    have h2 : (t' / 16 + BitVec.ofNat 32 (led.toNat * 8)).toNat % 256 =
        (t / 16 + BitVec.ofNat 32 (led.toNat * 8)).toNat % 256 := by
      rw [BitVec.toNat_add, BitVec.toNat_add]; omega
    simp only [Effect.getColour, Effects.rainbow, low8 h1, shl8 h1, low8 h2, shl8 h2]
  | contrastBumps =>
    cases hP
    have h1 : ∀ o : U32, (-(t' / 16 + o)).toNat % 256 = (-(t / 16 + o)).toNat % 256 := by
      intro o
      rw [BitVec.toNat_neg, BitVec.toNat_neg, BitVec.toNat_add, BitVec.toNat_add, div_toNat,
        div_toNat, show (16 : U32).toNat = 16 from rfl]
      omega
    have h2 : (t' * 16).toNat % 65536 = (t * 16).toNat % 65536 := by
      rw [BitVec.toNat_mul, BitVec.toNat_mul, show (16 : U32).toNat = 16 from rfl]; omega
    simp only [Effect.getColour, Effects.contrastBumps, shl8 (h1 _), low16 h2]
  | rainbowBumps =>
    cases hP
    have h1 : ∀ o : U32, (t' / 10 + o).toNat % 256 = (t / 10 + o).toNat % 256 := by
      intro o
      rw [BitVec.toNat_add, BitVec.toNat_add, div_toNat, div_toNat,
        show (10 : U32).toNat = 10 from rfl]
      omega
    have h2 : ∀ o : U32, (-(t' / 16 - o)).toNat % 256 = (-(t / 16 - o)).toNat % 256 := by
      intro o
      rw [BitVec.toNat_neg, BitVec.toNat_neg, BitVec.toNat_sub, BitVec.toNat_sub, div_toNat,
        div_toNat, show (16 : U32).toNat = 16 from rfl]
      omega
    simp only [Effect.getColour, Effects.rainbowBumps, shl8 (h1 _), shl8 (h2 _)]
  | stopLight =>
    cases hP
    have h : ∀ m : U32, m.toNat < 8 → (t' >>> 11) &&& m = (t >>> 11) &&& m := by
      intro m hm
      apply BitVec.eq_of_toNat_eq
      rw [BitVec.toNat_and, BitVec.toNat_and, BitVec.toNat_ushiftRight, BitVec.toNat_ushiftRight,
        Nat.shiftRight_eq_div_pow, Nat.shiftRight_eq_div_pow]
      exact and_low (k := 3) (n := 8) hm (by decide) (by omega)
    simp only [Effect.getColour, Effects.stopLight, h 0b100 (by decide), h 0b11 (by decide)]
  | swingingLights =>
    cases hP
    have h : t'.toNat % 5000 = t.toNat % 5000 := by omega
    simp only [Effect.getColour, Effects.swingingLights, h]
  | displayColorPalette =>
    cases hP
    have h : (t' / 2 * 23).toNat % 65536 = (t / 2 * 23).toNat % 65536 := by
      rw [BitVec.toNat_mul, BitVec.toNat_mul, div_toNat, div_toNat,
        show (2 : U32).toNat = 2 from rfl, show (23 : U32).toNat = 23 from rfl]
      omega
    simp only [Effect.getColour, Effects.displayColorPalette, low16 h]
  | simpleBlink s =>
    cases hP
    have h3 : 3 * s.toNat ∣ Nat.lcm (3 * s.toNat) 262144 := Nat.dvd_lcm_left ..
    have hg : 262144 ∣ Nat.lcm (3 * s.toNat) 262144 := Nat.dvd_lcm_right ..
    generalize Nat.lcm (3 * s.toNat) 262144 = P at *
    have h : (t' / 4 * 23).toNat % 65536 = (t / 4 * 23).toNat % 65536 := by
      rw [BitVec.toNat_mul, BitVec.toNat_mul, div_toNat, div_toNat,
        show (4 : U32).toNat = 4 from rfl, show (23 : U32).toNat = 23 from rfl]
      omega
    by_cases hs : s = 0
    · simp only [Effect.getColour, Effects.simpleBlink, if_pos hs]
    have hs0 : 0 < s.toNat := by
      rcases Nat.eq_zero_or_pos s.toNat with h0 | h0
      · exact absurd (BitVec.eq_of_toNat_eq h0) hs
      · exact h0
    have hc : (t' / s.setWidth 32) % 3 = (t / s.setWidth 32) % 3 := by
      apply BitVec.eq_of_toNat_eq
      obtain ⟨q, rfl⟩ := h3
      have hw : (s.setWidth 32 : U32).toNat = s.toNat := by
        rw [BitVec.toNat_setWidth]; have := s.isLt; omega
      have h3 : t'.toNat = t.toNat + s.toNat * (3 * q) := by
        rw [ht, Nat.mul_comm 3, Nat.mul_assoc]
      rw [BitVec.toNat_umod, BitVec.toNat_umod, div_toNat, div_toNat, hw, h3,
        Nat.add_mul_div_left _ _ hs0, show (3 : U32).toNat = 3 from rfl]
      omega
    simp only [Effect.getColour, Effects.simpleBlink, low16 h, hc]
  | police =>
    cases hP
    have h15 : (t' / 15).toNat % 64 = (t / 15).toNat % 64 := by
      rw [div_toNat, div_toNat, show (15 : U32).toNat = 15 from rfl]; omega
    have h14 : (t' / 14).toNat % 64 = (t / 14).toNat % 64 := by
      rw [div_toNat, div_toNat, show (14 : U32).toNat = 14 from rfl]; omega
    have h100 : (t' / 100) % 10 = (t / 100) % 10 := by
      apply BitVec.eq_of_toNat_eq
      rw [BitVec.toNat_umod, BitVec.toNat_umod, div_toNat, div_toNat,
        show (100 : U32).toNat = 100 from rfl, show (10 : U32).toNat = 10 from rfl]
      omega
    simp only [Effect.getColour, Effects.police, h100, and32 (m := 0b100000) (by decide) h15,
      and32 (m := 0b100000) (by decide) h14, and32 (m := 0b100) (by decide) h15,
      and32 (m := 0b100) (by decide) h14]
  | firefly o =>
    cases hP
    have h1 : (t' / Effects.kBlinkPeriod).toNat % 256 = (t / Effects.kBlinkPeriod).toNat % 256 := by
      rw [div_toNat, div_toNat, show Effects.kBlinkPeriod.toNat = 1024 from rfl]; omega
    have h2 : ∀ off : U32, (Effects.fireflyTime off t' * Effects.kSinMultiplier).toNat % 65536 =
        (Effects.fireflyTime off t * Effects.kSinMultiplier).toNat % 65536 := by
      intro off
      have hd : t' = t + 491520000 := by
        apply BitVec.eq_of_toNat_eq
        rw [BitVec.toNat_add, ht, show (491520000 : U32).toNat = 491520000 from rfl]
        have := t'.isLt
        omega
      have hph : (t' / Effects.kPeriodMs) % 3 = (t / Effects.kPeriodMs) % 3 := by
        apply BitVec.eq_of_toNat_eq
        rw [BitVec.toNat_umod, BitVec.toNat_umod, div_toNat, div_toNat,
          show Effects.kPeriodMs.toNat = 20000 from rfl, show (3 : U32).toNat = 3 from rfl]
        omega
      have hel : t' - t' / Effects.kPeriodMs * Effects.kPeriodMs =
          t - t / Effects.kPeriodMs * Effects.kPeriodMs := by
        apply BitVec.eq_of_toNat_eq
        rw [BitVec.toNat_sub, BitVec.toNat_sub, BitVec.toNat_mul, BitVec.toNat_mul, div_toNat,
          div_toNat, show Effects.kPeriodMs.toNat = 20000 from rfl]
        omega
      have hf : Effects.fireflyTime off t' = Effects.fireflyTime off t + 491520000 := by
        simp only [Effects.fireflyTime, hph, hel]
        generalize off * (Effects.kPeriodMs - (t - t / Effects.kPeriodMs * Effects.kPeriodMs)) /
          Effects.kPeriodMs = A
        generalize off * (t - t / Effects.kPeriodMs * Effects.kPeriodMs) / Effects.kPeriodMs = B
        rw [hd]
        split
        · split <;> bv_omega
        · split
          · rfl
          · split <;> bv_omega
      rw [hf, BitVec.toNat_mul, BitVec.toNat_mul, BitVec.toNat_add,
        show (491520000 : U32).toNat = 491520000 from rfl,
        show Effects.kSinMultiplier.toNat = 64 from rfl]
      omega
    simp only [Effect.getColour, Effects.firefly, shl8 h1, low16 (h2 _)]
  | pride =>
    have key : ∀ (x x' : U32) (l : U8), x'.toNat = x.toNat + 384 * strip.count.toNat →
        (BitVec.ofNat 32 (l.toNat * 8 * Effects.pridePalette.size.toNat) + x' / 8) %
          BitVec.ofNat 32 ((BitVec.ofNat 16 (strip.count.toNat * 8)).toNat *
            Effects.pridePalette.size.toNat) =
        (BitVec.ofNat 32 (l.toNat * 8 * Effects.pridePalette.size.toNat) + x / 8) %
          BitVec.ofNat 32 ((BitVec.ofNat 16 (strip.count.toNat * 8)).toNat *
            Effects.pridePalette.size.toNat) := by
      intro x x' l hx
      have := l.isLt
      have := strip.count.isLt
      have := x'.isLt
      apply BitVec.eq_of_toNat_eq
      simp only [BitVec.toNat_umod, BitVec.toNat_add, div_toNat, BitVec.toNat_ofNat,
        show Effects.pridePalette.size.toNat = 6 from rfl, show (8 : U32).toNat = 8 from rfl]
      rw [Nat.mod_eq_of_lt (a := l.toNat * 8 * 6) (by omega),
        Nat.mod_eq_of_lt (a := strip.count.toNat * 8) (by omega),
        Nat.mod_eq_of_lt (a := strip.count.toNat * 8 * 6) (by omega),
        Nat.mod_eq_of_lt (a := _ + x'.toNat / 8) (by omega),
        Nat.mod_eq_of_lt (a := _ + x.toNat / 8) (by omega),
        show l.toNat * 8 * 6 + x'.toNat / 8 =
          (l.toNat * 8 * 6 + x.toNat / 8) + strip.count.toNat * 8 * 6 by omega,
        Nat.add_mod_right]
    by_cases htiny : strip.flagEnabled .tiny
    · simp only [period, if_pos htiny] at hP
      cases hP
      have h := key (t * 2) (t' * 2) 0 (by
        rw [BitVec.toNat_mul, BitVec.toNat_mul, show (2 : U32).toNat = 2 from rfl]; omega)
      simp only [Effect.getColour, Effects.pride, if_pos htiny, h]
    · simp only [period, if_neg htiny] at hP
      cases hP
      have h := key t t' led ht
      simp only [Effect.getColour, Effects.pride, if_neg htiny, h]
  | spark =>
    cases hP
    obtain ⟨l, c, hm, hl, hc, hc0, hlc⟩ := mirrored_coordinate (strip := strip) (led := led) hled
    have h1 : ∀ o : U32, (t' / 24 + o).toNat % 256 = (t / 24 + o).toNat % 256 := by
      intro o
      rw [BitVec.toNat_add, BitVec.toNat_add, div_toNat, div_toNat,
        show (24 : U32).toNat = 24 from rfl]
      omega
    have key : ∀ n : Nat, n < 600 → t'.toNat * n < 2 ^ 32 →
        (t' * BitVec.ofNat 32 n / 3000).toNat = (t * BitVec.ofNat 32 n / 3000).toNat + n * 256 := by
      intro n hn hlt
      have h2 : t.toNat * n ≤ t'.toNat * n := Nat.mul_le_mul_right _ (by omega)
      have h3 : t'.toNat * n = t.toNat * n + 768000 * n := by rw [ht, Nat.add_mul]
      rw [div_toNat, div_toNat, BitVec.toNat_mul, BitVec.toNat_mul, BitVec.toNat_ofNat,
        Nat.mod_eq_of_lt (a := n) (by omega), show (3000 : U32).toNat = 3000 from rfl,
        Nat.mod_eq_of_lt (a := t'.toNat * n) (by omega),
        Nat.mod_eq_of_lt (a := t.toNat * n) (by omega)]
      omega
    have hc' := c.isLt
    have h2 : Effects.sparkPos l c t' strip = Effects.sparkPos l c t strip := by
      unfold Effects.sparkPos
      by_cases hci : strip.flagEnabled .circular = true
      · rw [if_pos hci] at hk
        have hcw : (c.setWidth 32 : U32) = BitVec.ofNat 32 c.toNat := by
          apply BitVec.eq_of_toNat_eq
          rw [BitVec.toNat_setWidth, BitVec.toNat_ofNat]
        have hkey := key c.toNat (by omega) (by rw [hc]; simpa using hk)
        have hd : ((t' * BitVec.ofNat 32 c.toNat / 3000 + l.setWidth 32) %
            BitVec.ofNat 32 c.toNat).toNat =
            ((t * BitVec.ofNat 32 c.toNat / 3000 + l.setWidth 32) %
            BitVec.ofNat 32 c.toNat).toNat := by
          have hlt : (t' * BitVec.ofNat 32 c.toNat / 3000).toNat < 2 ^ 31 := by
            rw [div_toNat, show (3000 : U32).toNat = 3000 from rfl]
            have := (t' * BitVec.ofNat 32 c.toNat).isLt
            omega
          have := l.isLt
          rw [BitVec.toNat_umod, BitVec.toNat_umod, BitVec.toNat_add, BitVec.toNat_add,
            BitVec.toNat_setWidth, BitVec.toNat_ofNat, Nat.mod_eq_of_lt (a := c.toNat) (by omega),
            Nat.mod_eq_of_lt (a := l.toNat) (by omega),
            Nat.mod_eq_of_lt (b := 2 ^ 32) (by omega), Nat.mod_eq_of_lt (b := 2 ^ 32) (by omega),
            hkey, Nat.add_right_comm, Nat.add_mul_mod_self_left]
        simp only [if_pos hci, hcw, hd]
      · rw [if_neg hci] at hk
        have := key (c.toNat + 8) (by omega) (by rw [hc]; exact hk)
        have hd : (t' * BitVec.ofNat 32 (c.toNat + 8) / 3000 %
            BitVec.ofNat 32 ((c.toNat + 8) * 2)).toNat =
            (t * BitVec.ofNat 32 (c.toNat + 8) / 3000 %
            BitVec.ofNat 32 ((c.toNat + 8) * 2)).toNat := by
          rw [BitVec.toNat_umod, BitVec.toNat_umod, this, BitVec.toNat_ofNat,
            Nat.mod_eq_of_lt (a := (c.toNat + 8) * 2) (by omega),
            show (c.toNat + 8) * 256 = (c.toNat + 8) * 2 * 128 by omega,
            Nat.add_mul_mod_self_left]
        simp only [if_neg hci, show Effects.brightnesses.length = 8 from rfl, hd]
    simp only [Effect.getColour, Effects.spark, hm, shl8 (h1 _), h2, bind, Except.bind]
  | fire o => cases hP
  | lightning => cases hP
  | rorschach o => cases hP

example : period (Strip.new 60 []) .spark = some (768000, 68) ∧
    period (Strip.new 60 [.tiny]) .pride = some (11520, 2) ∧
    period (Strip.new 60 []) (.simpleBlink 60) = some (11796480, 1) := by decide +kernel

/-- A packet naming palette 8. -/
def periodPacket : Packet :=
  { id := 7, type := .setEffect, len := 3, data := (Vector.replicate 58 0).set 2 8 }

/-- C100, the limit: after 17.5 hours the spark on a strip of 60 LEDs jumps, so the picture does not
repeat after a period; nor does the pride effect on tiny strips after 24.8 days. -/
theorem repetition_ends :
    (∃ t t' : U32, t'.toNat = t.toNat + 768000 ∧
      Effect.spark.getColour FastLED.reference .host 0 t' (Strip.new 60 []) periodPacket 0 ≠
        Effect.spark.getColour FastLED.reference .host 0 t (Strip.new 60 []) periodPacket 0) ∧
    (∃ t t' : U32, t'.toNat = t.toNat + 11520 ∧
      Effect.pride.getColour FastLED.reference .host 3 t' (Strip.new 60 [.tiny]) periodPacket 0 ≠
        Effect.pride.getColour FastLED.reference .host 3 t (Strip.new 60 [.tiny]) periodPacket 0) :=
  ⟨⟨63000000, 63768000, by decide, by decide +kernel⟩,
    ⟨2147480000, 2147491520, by decide, by decide +kernel⟩⟩

end Firefly.Props
