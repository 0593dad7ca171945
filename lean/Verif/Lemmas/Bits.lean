import Verif.Model.Basic

/-! # Low bits of words -/

namespace Firefly.Props
open Firefly

theorem shl8 {x y : U32} (h : x.toNat % 256 = y.toNat % 256) :
    ((x <<< 8).setWidth 16 : U16) = (y <<< 8).setWidth 16 := by
  apply BitVec.eq_of_toNat_eq
  rw [BitVec.toNat_setWidth, BitVec.toNat_setWidth, BitVec.toNat_shiftLeft, BitVec.toNat_shiftLeft,
    Nat.shiftLeft_eq, Nat.shiftLeft_eq]
  omega

theorem low8 {x y : U32} (h : x.toNat % 256 = y.toNat % 256) :
    (x.setWidth 8 : U8) = y.setWidth 8 := by
  apply BitVec.eq_of_toNat_eq
  rw [BitVec.toNat_setWidth, BitVec.toNat_setWidth]
  exact h

theorem low16 {x y : U32} (h : x.toNat % 65536 = y.toNat % 65536) :
    (x.setWidth 16 : U16) = y.setWidth 16 := by
  apply BitVec.eq_of_toNat_eq
  rw [BitVec.toNat_setWidth, BitVec.toNat_setWidth]
  exact h

theorem and_low {n m k x y : Nat} (hm : m < 2 ^ k) (hn : 2 ^ k ∣ n) (h : x % n = y % n) :
    x &&& m = y &&& m := by
  have hx : ∀ z : Nat, z &&& m = (z % 2 ^ k) &&& m := by
    intro z
    rw [← Nat.and_two_pow_sub_one_eq_mod, Nat.and_assoc, Nat.and_comm (2 ^ k - 1),
      Nat.and_two_pow_sub_one_eq_mod, Nat.mod_eq_of_lt hm]
  rw [hx x, hx y, ← Nat.mod_mod_of_dvd x hn, h, Nat.mod_mod_of_dvd y hn]

theorem and32 {x y m : U32} (hm : m.toNat < 64) (h : x.toNat % 64 = y.toNat % 64) :
    x &&& m = y &&& m := by
  apply BitVec.eq_of_toNat_eq
  rw [BitVec.toNat_and, BitVec.toNat_and]
  exact and_low (k := 6) hm ⟨1, rfl⟩ h

theorem div_toNat (x : U32) (d : U32) : (x / d).toNat = x.toNat / d.toNat := BitVec.toNat_udiv ..

end Firefly.Props
