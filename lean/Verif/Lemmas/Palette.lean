import Verif.Lemmas.FastLED
import Verif.Model.Color
import Verif.Spec.Color

/-! # Lemmas about palettes -/

namespace Firefly
open Spec

/-- Colour number `i`, counting round and round. -/
def Palette.at (p : Palette) (h : 0 < p.length) (i : Nat) : CHSV :=
  p[i % p.length]'(Nat.mod_lt _ h)

theorem Palette.getColor_eq (p : Palette) (h : 0 < p.length) (i : U8) :
    p.getColor i = .ok (p.at h i.toNat) := by
  have : p.length ≠ 0 := by omega
  simp [Palette.getColor, this, Palette.at]

theorem quot_le (m pos : Nat) (hm : 0 < m) (hm' : m ≤ 255) (hp : pos < 65536) :
    257 ≤ 65535 / m ∧ pos / (65535 / m) ≤ 255 ∧
      (pos % (65535 / m) ≠ 0 → pos / (65535 / m) ≤ 254) := by
  have h1 : 257 ≤ 65535 / m := (Nat.le_div_iff_mul_le hm).2 (by omega)
  generalize 65535 / m = r at *
  have h2 : pos / r ≤ 255 := by
    have : pos / r < 256 := (Nat.div_lt_iff_lt_mul (by omega)).2 (by omega)
    omega
  refine ⟨h1, h2, fun h => ?_⟩
  apply Decidable.byContradiction
  intro h3
  have h4 : pos / r = 255 := by omega
  have h5 := Nat.div_add_mod pos r
  rw [h4] at h5
  omega

/-- The fraction the code computes with 32-bit arithmetic is the exact one. -/
theorem fraction_eq (pos r : U16) (index : U8) (hr : 0 < r.toNat)
    (hi : index.toNat = pos.toNat / r.toNat) :
    (((pos.setWidth 32 - index.setWidth 32 * r.setWidth 32) *
        (65535 : U32) / r.setWidth 32).setWidth 16 : U16).toNat =
      pos.toNat % r.toNat * 65535 / r.toNat := by
  have hp := pos.isLt
  have hr' := r.isLt
  have hlt : pos.toNat % r.toNat < r.toNat := Nat.mod_lt _ hr
  have e1 : (pos.setWidth 32 - index.setWidth 32 * r.setWidth 32 : U32).toNat =
      pos.toNat % r.toNat := by
    have h := Nat.div_add_mod pos.toNat r.toNat
    rw [← hi, Nat.mul_comm] at h
    have hz : (index.setWidth 32 * r.setWidth 32 : U32).toNat = index.toNat * r.toNat := by
      have hi' := index.isLt
      rw [BitVec.toNat_mul, BitVec.toNat_setWidth, BitVec.toNat_setWidth,
        Nat.mod_eq_of_lt (a := index.toNat) (by omega),
        Nat.mod_eq_of_lt (a := r.toNat) (by omega), Nat.mod_eq_of_lt (by omega)]
    rw [BitVec.toNat_sub, hz, BitVec.toNat_setWidth]
    omega
  have e2 : ((pos.setWidth 32 - index.setWidth 32 * r.setWidth 32) * (65535 : U32)).toNat =
      pos.toNat % r.toNat * 65535 := by
    rw [BitVec.toNat_mul, e1]
    have h5 : (65535 : U32).toNat = 65535 := rfl
    rw [h5]
    apply Nat.mod_eq_of_lt
    omega
  rw [BitVec.toNat_setWidth, BitVec.toNat_udiv, e2, BitVec.toNat_setWidth,
    Nat.mod_eq_of_lt (a := r.toNat) (by omega)]
  apply Nat.mod_eq_of_lt
  apply (Nat.div_lt_iff_lt_mul hr).2
  omega

/-- The gradient in terms of exact arithmetic. -/
theorem Palette.getGradient_eq (F : FastLED) (p : Palette) (pos : U16) (wrap : Bool)
    (hn : 2 ≤ p.length) (hn' : p.length ≤ 255) :
    ∃ t : U16, t.toNat = pos.toNat % spacing p.length wrap * 65535 / spacing p.length wrap ∧
      p.getGradient F pos wrap = .ok (
        let a := p.at (by omega) (pos.toNat / spacing p.length wrap)
        let b := p.at (by omega) (pos.toNat / spacing p.length wrap + 1)
        if pos.toNat % spacing p.length wrap = 0 then a
        else ⟨lerpHue F a.h b.h t, (F.lerp16by16 (a.s.setWidth 16) (b.s.setWidth 16) t).setWidth 8,
          (F.lerp16by16 (a.v.setWidth 16) (b.v.setWidth 16) t).setWidth 8⟩) := by
  have hpos := pos.isLt
  obtain ⟨size, hsize⟩ : ∃ size : U8, size =
      (if wrap then BitVec.ofNat 8 p.length else BitVec.ofNat 8 (p.length - 1)) := ⟨_, rfl⟩
  have hs : size.toNat = if wrap then p.length else p.length - 1 := by
    cases wrap <;> simp [hsize] <;> omega
  have hs1 : 0 < size.toNat := by rw [hs]; cases wrap <;> simp <;> omega
  have hs2 : size.toNat ≤ 255 := by have := size.isLt; omega
  obtain ⟨r, hr⟩ : ∃ r : U16, r = 65535 / size.setWidth 16 := ⟨_, rfl⟩
  have hrn : r.toNat = spacing p.length wrap := by
    rw [hr, BitVec.toNat_udiv, BitVec.toNat_setWidth, spacing, ← hs,
      Nat.mod_eq_of_lt (by omega)]
    rfl
  obtain ⟨q1, q2, q3⟩ := quot_le size.toNat pos.toNat hs1 hs2 hpos
  have hsp : spacing p.length wrap = 65535 / size.toNat := by rw [spacing, ← hs]
  rw [← hsp, ← hrn] at q1 q2 q3
  obtain ⟨index, hidx⟩ : ∃ i : U8, i = (pos / r).setWidth 8 := ⟨_, rfl⟩
  have hin : index.toNat = pos.toNat / r.toNat := by
    rw [hidx, BitVec.toNat_setWidth, BitVec.toNat_udiv]
    exact Nat.mod_eq_of_lt (Nat.lt_of_le_of_lt q2 (by decide))
  refine ⟨((pos.setWidth 32 - index.setWidth 32 * r.setWidth 32) *
        (65535 : U32) / r.setWidth 32).setWidth 16, ?_, ?_⟩
  · rw [fraction_eq pos r index (by omega) hin, hrn]
  · have hsz : size ≠ 0 := by
      intro h; rw [h] at hs1; exact absurd hs1 (by decide)
    match p, hn with
    | c₁ :: c₂ :: cs, hn =>
      rw [Palette.getGradient]
      · simp only [bind, Except.bind]
        rw [← hsize, if_neg hsz, ← hr, ← hidx, getColor_eq _ (by omega)]
        have hmod : (pos % r = 0) ↔ pos.toNat % r.toNat = 0 := by
          rw [← BitVec.toNat_inj, BitVec.toNat_umod]; rfl
        simp only [hmod, hin, hrn]
        by_cases hz : pos.toNat % spacing (c₁ :: c₂ :: cs).length wrap = 0
        · rw [if_pos hz, if_pos hz]
        · rw [if_neg hz, if_neg hz]
          rw [getColor_eq _ (by omega)]
          have hq := q3 (by rw [hrn]; exact hz)
          have : (index + 1).toNat = index.toNat + 1 := by
            rw [BitVec.toNat_add]
            have : (1 : U8).toNat = 1 := rfl
            omega
          simp only [this, hin, hrn]
      · intro h; cases h
      · intro c h; cases h

theorem setWidth_between {F : FastLED} (hF : F.Lawful) (a b : U8) (t : U16) :
    Between a.toNat b.toNat
      ((F.lerp16by16 (a.setWidth 16) (b.setWidth 16) t).setWidth 8 : U8).toNat := by
  have h := hF.lerp16_between (a.setWidth 16) (b.setWidth 16) t
  have ha := a.isLt
  have hb := b.isLt
  have ea : (a.setWidth 16 : U16).toNat = a.toNat := by rw [BitVec.toNat_setWidth]; omega
  have eb : (b.setWidth 16 : U16).toNat = b.toNat := by rw [BitVec.toNat_setWidth]; omega
  rw [ea, eb] at h
  rw [BitVec.toNat_setWidth, Between]
  omega

theorem lerpHue_shorter {F : FastLED} (hF : F.Lawful) (a b : U8) (t : U16)
    (hne : a.toNat + 127 ≠ b.toNat) (hne' : b.toNat + 127 ≠ a.toNat) :
    OnShorterArc a.toNat b.toNat (Palette.lerpHue F a b t).toNat := by
  have ha := a.isLt
  have hb := b.isLt
  have ea : (a.setWidth 16 : U16).toNat = a.toNat := by rw [BitVec.toNat_setWidth]; omega
  have eb : (b.setWidth 16 : U16).toNat = b.toNat := by rw [BitVec.toNat_setWidth]; omega
  have ea' : (a.setWidth 16 + 255 : U16).toNat = a.toNat + 255 := by
    rw [BitVec.toNat_add, ea]
    have : (255 : U16).toNat = 255 := rfl
    omega
  have eb' : (b.setWidth 16 + 255 : U16).toNat = b.toNat + 255 := by
    rw [BitVec.toNat_add, eb]
    have : (255 : U16).toNat = 255 := rfl
    omega
  have sub : ∀ h : U16, h.toNat ≤ 510 →
      ((if (255 : U16) < h then h - 255 else h : U16).setWidth 8 : U8).toNat % 255 =
        h.toNat % 255 := by
    intro h hh
    have : (255 : U16).toNat = 255 := rfl
    rw [BitVec.toNat_setWidth]
    split
    · rename_i hl
      have hl' : 255 < h.toNat := by simpa [BitVec.lt_def] using hl
      rw [BitVec.toNat_sub]
      omega
    · rename_i hl
      have hl' : h.toNat ≤ 255 := by simpa [BitVec.lt_def] using hl
      omega
  simp only [Palette.lerpHue]
  split
  · rename_i hd
    have hl := hF.lerp16_between (a.setWidth 16) (b.setWidth 16) t
    rw [ea, eb] at hl
    generalize F.lerp16by16 (a.setWidth 16) (b.setWidth 16) t = x at *
    rw [BitVec.toNat_setWidth]
    by_cases hab : a.toNat ≤ b.toNat
    · left
      exact ⟨by unfold forward; omega, x.toNat - a.toNat, by unfold forward; omega, by omega⟩
    · right
      exact ⟨by unfold forward; omega, x.toNat - b.toNat, by unfold forward; omega, by omega⟩
  · rename_i hd
    split
    · rename_i hlt
      have hlt' : a.toNat < b.toNat := by simpa [BitVec.lt_def] using hlt
      have hl := hF.lerp16_between (a.setWidth 16 + 255) (b.setWidth 16) t
      rw [ea', eb] at hl
      generalize F.lerp16by16 (a.setWidth 16 + 255) (b.setWidth 16) t = x at *
      right
      refine ⟨by unfold forward; omega, x.toNat - b.toNat, by unfold forward; omega, ?_⟩
      rw [sub x (by omega)]
      omega
    · rename_i hlt
      have hlt' : b.toNat ≤ a.toNat := by simpa [BitVec.lt_def] using hlt
      have hl := hF.lerp16_between (a.setWidth 16) (b.setWidth 16 + 255) t
      rw [ea, eb'] at hl
      generalize F.lerp16by16 (a.setWidth 16) (b.setWidth 16 + 255) t = x at *
      left
      refine ⟨by unfold forward; omega, x.toNat - a.toNat, by unfold forward; omega, ?_⟩
      rw [sub x (by omega)]
      omega

theorem fraction_small (n : Nat) (h2 : 2 ≤ n) (h17 : n ≤ 17) :
    255 * (1 + 65535 % (65535 / n) * 65535 / (65535 / n)) < 65536 ∧ 65535 / (65535 / n) = n := by
  have : n = 2 ∨ n = 3 ∨ n = 4 ∨ n = 5 ∨ n = 6 ∨ n = 7 ∨ n = 8 ∨ n = 9 ∨ n = 10 ∨ n = 11 ∨
    n = 12 ∨ n = 13 ∨ n = 14 ∨ n = 15 ∨ n = 16 ∨ n = 17 := by omega
  rcases this with h | h | h | h | h | h | h | h | h | h | h | h | h | h | h | h <;>
    subst h <;> exact ⟨by decide, by decide⟩

theorem lerp_small {F : FastLED} (hF : F.Lawful) (a b t : U16)
    (hd : a.toNat ≤ b.toNat + 255) (hd' : b.toNat ≤ a.toNat + 255)
    (ht : 255 * (1 + t.toNat) < 65536) : F.lerp16by16 a b t = a := by
  have key : ∀ d, d ≤ 255 → d * (1 + t.toNat) / 65536 = 0 := by
    intro d hd
    apply Nat.div_eq_of_lt
    exact Nat.lt_of_le_of_lt (Nat.mul_le_mul_right _ hd) ht
  apply BitVec.eq_of_toNat_eq
  rw [hF.lerp16by16, key _ (by omega), key _ (by omega)]
  simp

end Firefly
