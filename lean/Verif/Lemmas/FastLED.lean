import Verif.Model.FastLED

/-! # The reference implementation of the FastLED functions obeys the laws -/

namespace Firefly.FastLED

theorem scaled_le (d f m : Nat) (hf : f < m) : d * (1 + f) / m ≤ d := by
  apply Nat.div_le_of_le_mul
  rw [Nat.mul_comm m d]
  exact Nat.mul_le_mul_left _ (by omega)

theorem reference_lerp16by16 (a b f : U16) : (reference.lerp16by16 a b f).toNat =
    if a < b then a.toNat + (b.toNat - a.toNat) * (1 + f.toNat) / 65536
    else a.toNat - (a.toNat - b.toNat) * (1 + f.toNat) / 65536 := by
  have ha := a.isLt
  have hb := b.isLt
  have hf := f.isLt
  simp only [reference]
  split
  · rename_i h
    have hlt : a.toNat < b.toNat := by simpa [BitVec.lt_def] using h
    have := scaled_le (b.toNat - a.toNat) f.toNat 65536 (by omega)
    generalize (b.toNat - a.toNat) * (1 + f.toNat) / 65536 = q at *
    rw [BitVec.toNat_add, BitVec.toNat_ofNat]
    omega
  · rename_i h
    have hle : b.toNat ≤ a.toNat := by simpa [BitVec.lt_def] using h
    have := scaled_le (a.toNat - b.toNat) f.toNat 65536 (by omega)
    generalize (a.toNat - b.toNat) * (1 + f.toNat) / 65536 = q at *
    rw [BitVec.toNat_sub, BitVec.toNat_ofNat]
    omega

theorem reference_lerp15by8 (a b : U16) (f : U8) : (reference.lerp15by8 a b f).toInt =
    if a.toInt < b.toInt then a.toInt + (b.toInt - a.toInt) * (1 + f.toNat) / 256
    else a.toInt - (a.toInt - b.toInt) * (1 + f.toNat) / 256 := by
  have ha := a.isLt
  have hb := b.isLt
  have hf := f.isLt
  simp only [reference]
  split
  · rename_i h
    have e : (b.toInt - a.toInt) = ((b - a).toNat : Int) := by
      rw [BitVec.toInt_eq_toNat_cond, BitVec.toInt_eq_toNat_cond, BitVec.toNat_sub] at *
      omega
    have hq := scaled_le (b - a).toNat f.toNat 256 (by omega)
    rw [e]
    have e2 : ((b - a).toNat : Int) * (1 + (f.toNat : Int)) / 256 =
        (((b - a).toNat * (1 + f.toNat) / 256 : Nat) : Int) := by simp
    rw [e2]
    generalize (b - a).toNat * (1 + f.toNat) / 256 = q at *
    rw [BitVec.toInt_eq_toNat_cond (a + _), BitVec.toNat_add, BitVec.toNat_ofNat]
    rw [BitVec.toInt_eq_toNat_cond, BitVec.toInt_eq_toNat_cond] at *
    rw [BitVec.toNat_sub] at *
    omega
  · rename_i h
    have e : (a.toInt - b.toInt) = ((a - b).toNat : Int) := by
      rw [BitVec.toInt_eq_toNat_cond, BitVec.toInt_eq_toNat_cond, BitVec.toNat_sub] at *
      omega
    have hq := scaled_le (a - b).toNat f.toNat 256 (by omega)
    rw [e]
    have e2 : ((a - b).toNat : Int) * (1 + (f.toNat : Int)) / 256 =
        (((a - b).toNat * (1 + f.toNat) / 256 : Nat) : Int) := by simp
    rw [e2]
    generalize (a - b).toNat * (1 + f.toNat) / 256 = q at *
    rw [BitVec.toInt_eq_toNat_cond (a - _), BitVec.toNat_sub, BitVec.toNat_ofNat]
    rw [BitVec.toInt_eq_toNat_cond, BitVec.toInt_eq_toNat_cond] at *
    rw [BitVec.toNat_sub] at *
    omega

theorem refSin16_range (x : U16) : -32767 ≤ (refSin16 x).toInt := by
  have h : ∀ y : Nat, y ≤ 32767 → ∀ b : Bool,
      -32767 ≤ ((if b then - BitVec.ofNat 16 y else BitVec.ofNat 16 y) : U16).toInt := by
    intro y hy b
    cases b
    · rw [if_neg (by simp), BitVec.toInt_eq_toNat_cond, BitVec.toNat_ofNat]; omega
    · rw [if_pos rfl, BitVec.toInt_eq_toNat_cond, BitVec.toNat_neg, BitVec.toNat_ofNat]; omega
  unfold refSin16
  apply h
  generalize (if x.getLsbD 14 = true then _ else _ : Nat) = o
  have hs : o / 256 % 8 < 8 := Nat.mod_lt _ (by decide)
  have ho : o % 256 / 2 ≤ 127 := by omega
  generalize o / 256 % 8 = s at *
  generalize o % 256 / 2 = k at *
  rcases s with _ | _ | _ | _ | _ | _ | _ | _ | s
  all_goals first | (exfalso; omega) | (simp; omega)

theorem refSin16_sign (x : U16) : (x.toNat < 32768 → 0 ≤ (refSin16 x).toInt) ∧
    (32768 ≤ x.toNat → (refSin16 x).toInt ≤ 0) := by
  have h : ∀ y : Nat, y ≤ 32767 →
      let r := ((if x.getLsbD 15 then - BitVec.ofNat 16 y else BitVec.ofNat 16 y) : U16).toInt
      (x.toNat < 32768 → 0 ≤ r) ∧ (32768 ≤ x.toNat → r ≤ 0) := by
    intro y hy
    have hx := x.isLt
    have hb : x.getLsbD 15 = decide (32768 ≤ x.toNat) := by
      rw [BitVec.getLsbD, Nat.testBit_eq_decide_div_mod_eq]
      congr 1
      simp only [eq_iff_iff]
      omega
    rw [hb]
    by_cases hge : 32768 ≤ x.toNat
    · rw [if_pos (by simpa using hge), BitVec.toInt_eq_toNat_cond, BitVec.toNat_neg,
        BitVec.toNat_ofNat]
      exact ⟨by omega, by omega⟩
    · rw [if_neg (by simpa using hge), BitVec.toInt_eq_toNat_cond, BitVec.toNat_ofNat]
      exact ⟨by omega, by omega⟩
  unfold refSin16
  apply h
  generalize (if x.getLsbD 14 = true then _ else _ : Nat) = o
  have hs : o / 256 % 8 < 8 := Nat.mod_lt _ (by decide)
  have ho : o % 256 / 2 ≤ 127 := by omega
  generalize o / 256 % 8 = s at *
  generalize o % 256 / 2 = k at *
  rcases s with _ | _ | _ | _ | _ | _ | _ | _ | s
  all_goals first | (exfalso; omega) | (simp; omega)

theorem reference_lawful : reference.Lawful where
  lerp16by16 := reference_lerp16by16
  lerp15by8 := reference_lerp15by8
  sin16_range := refSin16_range
  sin16_sign := refSin16_sign
  qadd8 a b := by
    simp only [reference, BitVec.toNat_ofNat]
    omega
  hsv2rgb_black c h := by simp [reference, h, CRGB.black]

namespace Lawful
variable {F : FastLED} (hF : F.Lawful)
include hF

theorem lerp16_between (a b f : U16) :
    min a.toNat b.toNat ≤ (F.lerp16by16 a b f).toNat ∧
      (F.lerp16by16 a b f).toNat ≤ max a.toNat b.toNat := by
  rw [hF.lerp16by16]
  have hf := f.isLt
  split
  · rename_i h
    have hlt : a.toNat < b.toNat := by simpa [BitVec.lt_def] using h
    have := scaled_le (b.toNat - a.toNat) f.toNat 65536 (by omega)
    omega
  · rename_i h
    have hle : b.toNat ≤ a.toNat := by simpa [BitVec.lt_def] using h
    have := scaled_le (a.toNat - b.toNat) f.toNat 65536 (by omega)
    omega

theorem lerp15_between (a b : U16) (f : U8) :
    min a.toInt b.toInt ≤ (F.lerp15by8 a b f).toInt ∧
      (F.lerp15by8 a b f).toInt ≤ max a.toInt b.toInt := by
  rw [hF.lerp15by8]
  have hf := f.isLt
  have key : ∀ d : Int, 0 ≤ d → d * (1 + (f.toNat : Int)) / 256 ≤ d ∧
      0 ≤ d * (1 + (f.toNat : Int)) / 256 := by
    intro d hd
    obtain ⟨n, rfl⟩ := Int.eq_ofNat_of_zero_le hd
    have := scaled_le n f.toNat 256 (by omega)
    have e : (n : Int) * (1 + (f.toNat : Int)) / 256 =
        ((n * (1 + f.toNat) / 256 : Nat) : Int) := by simp
    rw [e]
    omega
  split
  · have := key (b.toInt - a.toInt) (by omega)
    omega
  · have := key (a.toInt - b.toInt) (by omega)
    omega

end Lawful

end Firefly.FastLED
