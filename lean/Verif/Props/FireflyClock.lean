import Verif.Props.Patterns
import Verif.Props.Motion

/-! # The clock of a firefly as it can be seen (C64) -/

namespace Firefly.Props
open Spec

theorem firefly_angle (t : U32) (s : Int) :
    ((t + BitVec.ofInt 32 s) * Effects.kSinMultiplier).setWidth 16 = BitVec.ofInt 16 (64 * (t.toNat + s)) := by
  apply BitVec.eq_of_toNat_eq
  rw [BitVec.toNat_setWidth, BitVec.toNat_mul, BitVec.toNat_add, BitVec.toNat_ofInt, BitVec.toNat_ofInt,
    show Effects.kSinMultiplier.toNat = 64 from rfl]
  have := t.isLt
  omega

/-- C64: what the shift of a firefly's clock means for the eye.  The firefly of a device with offset `o` glows with the
positive half of a sine of period 1024 ms, taken at the network time plus a shift; the shift is at most `o`, changes by at
most 1 ms from each ms to the next, and is zero while the fireflies are in sync.  Hue and saturation are those of the
palette's gradient, which moves on by 256 every 1024 ms of network time, without a shift. -/
theorem firefly_glow (o : U32) (ho : o.toNat < 512) :
    ∃ shift : Nat → Int,
      (∀ ms, (shift ms).natAbs ≤ o.toNat) ∧
      (∀ ms, (shift (ms + 1) - shift ms).natAbs ≤ 1) ∧
      (∀ ms, ms / 20000 % 3 = 1 → shift ms = 0) ∧
      ∀ (F : FastLED) (plat : Platform) (led : U8) (t : U32) (strip : Strip) (pkt : Packet) (rng : U16),
        strip.flagEnabled .controller = false → NamesPalette plat pkt →
        ∀ p, palettes[pkt.data[2].toNat]? = some p →
        ∃ c g, (Effect.firefly o).getColour F plat led t strip pkt rng = .ok (.hsv c, rng) ∧
          p.getGradient F (BitVec.ofNat 16 (256 * (t.toNat / 1024))) = .ok g ∧ c.h = g.h ∧ c.s = g.s ∧
          (c.v.toNat : Int) = max 0 (F.sin16 (BitVec.ofInt 16 (64 * (t.toNat + shift t.toNat)))).toInt / 256 := by
  obtain ⟨shift, h1, h2, h3, h4⟩ := firefly_shift_is_smooth o ho
  refine ⟨shift, h2, h3, h4, fun F plat led t strip pkt rng hc hpkt p hp => ?_⟩
  have hsm := palettes_small p (List.mem_of_getElem? hp)
  have hpos : ((t / Effects.kBlinkPeriod) <<< 8).setWidth 16 = BitVec.ofNat 16 (256 * (t.toNat / 1024)) := by
    apply BitVec.eq_of_toNat_eq
    rw [BitVec.toNat_setWidth, BitVec.toNat_shiftLeft, BitVec.toNat_udiv, BitVec.toNat_ofNat,
      show Effects.kBlinkPeriod.toNat = 1024 from rfl, Nat.shiftLeft_eq]
    omega
  obtain ⟨g, hg⟩ := gradient_total F p (BitVec.ofNat 16 (256 * (t.toNat / 1024))) true (by omega)
  generalize hx : (F.sin16 (BitVec.ofInt 16 (64 * (t.toNat + shift t.toNat)))).toInt = x
  have hlt : x < 2 ^ 15 := by rw [← hx]; exact BitVec.toInt_lt
  refine ⟨{ g with v := BitVec.ofInt 8 ((if x < 0 then 0 else x).tdiv 256) }, g, ?_, hg, rfl, rfl, ?_⟩
  · simp only [Effect.getColour, Effects.firefly, hc, h1, firefly_angle, hx, paletteOf_named hpkt hp, hpos, hg, bind,
      Except.bind, pure, Except.pure, Bool.false_eq_true, false_and, if_false]
    rfl
  · rw [BitVec.toNat_ofInt]
    have hm : (if x < 0 then 0 else x) = max 0 x := by split <;> omega
    rw [hm, Int.tdiv_eq_ediv_of_nonneg (by omega)]
    omega

/-- A device with offset 400 is 100 ms ahead at 45000: it glows as one with offset 0 does 100 ms later. -/
example : ([(400, 45000), (0, 45000), (0, 45100)].map fun x : U32 × U32 =>
    ((Effect.firefly x.1).getColour FastLED.reference .host 3 x.2 (Strip.new 60 []) motionPacket 0).toOption.map (·.1)) =
    [some (.hsv ⟨48, 255, 33⟩), some (.hsv ⟨48, 255, 0⟩), some (.hsv ⟨49, 255, 33⟩)] := by decide +kernel

end Firefly.Props
