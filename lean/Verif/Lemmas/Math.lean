import Verif.Lemmas.FastLED
import Verif.Model.Math
import Verif.Spec.Noise

/-! # Lemmas about the noise -/

namespace Firefly
open Spec

theorem toInt8_range (g : U8) : -128 ≤ g.toInt ∧ g.toInt ≤ 127 := by
  have := g.isLt
  rw [BitVec.toInt_eq_toNat_cond]
  split <;> omega

theorem mul_range {d g : Int} (hd : -256 ≤ d) (hd' : d ≤ 255) (hg : -128 ≤ g) (hg' : g ≤ 127) :
    -32768 ≤ d * g ∧ d * g ≤ 32768 := by
  have h1 : 0 ≤ (d + 256) * (g + 128) := Int.mul_nonneg (by omega) (by omega)
  have h2 : 0 ≤ (256 - d) * (128 - g) := Int.mul_nonneg (by omega) (by omega)
  have h3 : 0 ≤ (d + 256) * (128 - g) := Int.mul_nonneg (by omega) (by omega)
  have h4 : 0 ≤ (256 - d) * (g + 128) := Int.mul_nonneg (by omega) (by omega)
  simp only [Int.add_mul, Int.mul_add, Int.sub_mul, Int.mul_sub] at h1 h2 h3 h4
  omega

theorem contribution_toInt {dx dy : Int} (g h : U8) (hx : -256 ≤ dx) (hx' : dx ≤ 255)
    (hy : -256 ≤ dy) (hy' : dy ≤ 255) :
    (BitVec.ofInt 16 ((dx * g.toInt + dy * h.toInt) / 256)).toInt =
      contribution dx dy (g.toInt, h.toInt) ∧
    -256 ≤ contribution dx dy (g.toInt, h.toInt) ∧
    contribution dx dy (g.toInt, h.toInt) ≤ 256 := by
  obtain ⟨g1, g2⟩ := toInt8_range g
  obtain ⟨h1, h2⟩ := toInt8_range h
  have m1 := mul_range hx hx' g1 g2
  have m2 := mul_range hy hy' h1 h2
  simp only [contribution]
  generalize dx * g.toInt = u at *
  generalize dy * h.toInt = v at *
  refine ⟨?_, by omega, by omega⟩
  rw [BitVec.toInt_ofInt]
  apply Int.bmod_eq_of_le <;> omega

theorem lerp_toInt {F : FastLED} (hF : F.Lawful) (a b : U16) (f : U8) :
    (F.lerp15by8 a b f).toInt = lerp a.toInt b.toInt f.toNat := hF.lerp15by8 a b f

theorem noise_clamp {F : FastLED} (hF : F.Lawful) (A B C D : U16) (ex ey : U8)
    (hA : -256 ≤ A.toInt ∧ A.toInt ≤ 256) (hB : -256 ≤ B.toInt ∧ B.toInt ≤ 256)
    (hC : -256 ≤ C.toInt ∧ C.toInt ≤ 256) (hD : -256 ≤ D.toInt ∧ D.toInt ≤ 256) :
    let v := F.lerp15by8 (F.lerp15by8 A B ex) (F.lerp15by8 C D ex) ey
    ((((if 256 ≤ (v * 4 + 128).toInt then 255 else if (v * 4 + 128).toInt < 0 then 0
      else v * 4 + 128 : U16).setWidth 8 : U8).toNat : Nat) : Int) =
      clampByte (128 + 4 * lerp (lerp A.toInt B.toInt ex.toNat) (lerp C.toInt D.toInt ex.toNat)
        ey.toNat) := by
  intro v
  have b1 := hF.lerp15_between A B ex
  have b2 := hF.lerp15_between C D ex
  have b3 := hF.lerp15_between (F.lerp15by8 A B ex) (F.lerp15by8 C D ex) ey
  change _ ≤ v.toInt ∧ v.toInt ≤ _ at b3
  have hv : -256 ≤ v.toInt ∧ v.toInt ≤ 256 := by omega
  rw [← lerp_toInt hF, ← lerp_toInt hF, ← lerp_toInt hF]
  change _ = clampByte (128 + 4 * v.toInt)
  generalize v = v at *
  have e : (v * 4 + 128).toInt = 128 + 4 * v.toInt := by
    have c4 : (4 : U16).toInt = 4 := rfl
    have c128 : (128 : U16).toInt = 128 := rfl
    rw [BitVec.toInt_add, BitVec.toInt_mul, c4, c128,
      Int.bmod_eq_of_le (n := v.toInt * 4) (by omega) (by omega),
      Int.bmod_eq_of_le (by omega) (by omega)]
    omega
  rw [e, clampByte]
  split
  · have : ((255 : U16).setWidth 8 : U8).toNat = 255 := rfl
    rw [this]; omega
  · split
    · have : ((0 : U16).setWidth 8 : U8).toNat = 0 := rfl
      rw [this]; omega
    · have hn : (v * 4 + 128).toNat = (v * 4 + 128).toInt := by
        rw [BitVec.toInt_eq_toNat_cond] at e ⊢
        split <;> omega
      rw [BitVec.toNat_setWidth]
      omega

end Firefly
