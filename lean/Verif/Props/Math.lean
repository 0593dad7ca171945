import Verif.Lemmas.Math

/-! # Properties of the geometry helpers and of the noise (C49, C50, C69) -/

namespace Firefly.Props
open Firefly Spec

/-! ## C49: mirroring -/

/-- C49: on a strip of `n ≥ 1` LEDs, mirroring maps LED `i` to its distance from the nearer
end, so into `[0, ceil(n/2))`, and reports `ceil(n/2)` as the new count.  (An index beyond
the strip is first reduced modulo `n`.) -/
theorem mirror_distance_to_nearer_end (index count : U8) (hc : 0 < count.toNat) :
    ∃ i c, mirrorIndex index count = .ok (i, c) ∧
      i.toNat = min (index.toNat % count.toNat)
        (count.toNat - 1 - index.toNat % count.toNat) ∧
      c.toNat = (count.toNat + 1) / 2 ∧ i.toNat < c.toNat := by
  have hi := index.isLt
  have hcl := count.isLt
  have hne : count ≠ 0 := by intro h; rw [h] at hc; exact absurd hc (by decide)
  have hm : (index % count).toNat = index.toNat % count.toNat := BitVec.toNat_umod ..
  have hlt : index.toNat % count.toNat < count.toNat := Nat.mod_lt _ hc
  have hn : (BitVec.ofNat 8 ((count.toNat + 1) / 2) : U8).toNat = (count.toNat + 1) / 2 := by
    rw [BitVec.toNat_ofNat]; omega
  have key : ((if BitVec.ofNat 8 ((count.toNat + 1) / 2) ≤ index % count then
      count - index % count - 1 else index % count : U8)).toNat =
        min (index.toNat % count.toNat) (count.toNat - 1 - index.toNat % count.toNat) := by
    have h1 : (1 : U8).toNat = 1 := rfl
    split
    · rename_i h
      rw [BitVec.le_def, hn, hm] at h
      rw [BitVec.toNat_sub, BitVec.toNat_sub, hm, h1]
      omega
    · rename_i h
      rw [BitVec.le_def, hn, hm] at h
      rw [hm]
      omega
  refine ⟨_, _, by simp only [mirrorIndex]; rw [if_neg hne], key, hn, ?_⟩
  rw [key, hn]
  omega

/-- C49: the two halves are mirror images. -/
theorem mirror_symmetric (i j count : U8) (hi : i.toNat < count.toNat)
    (hj : i.toNat + j.toNat + 1 = count.toNat) :
    mirrorIndex i count = mirrorIndex j count := by
  obtain ⟨a, c, e1, h1, h2, -⟩ := mirror_distance_to_nearer_end i count (by omega)
  obtain ⟨b, d, e2, h3, h4, -⟩ := mirror_distance_to_nearer_end j count (by omega)
  rw [e1, e2]
  rw [Nat.mod_eq_of_lt (by omega)] at h1 h3
  have : a = b := BitVec.eq_of_toNat_eq (by omega)
  have : c = d := BitVec.eq_of_toNat_eq (by omega)
  simp [*]

/-- C49: the first half is left alone. -/
theorem mirror_identity (i count : U8) (hi : 2 * i.toNat < count.toNat) :
    ∃ c, mirrorIndex i count = .ok (i, c) := by
  obtain ⟨a, c, e1, h1, h2, -⟩ := mirror_distance_to_nearer_end i count (by omega)
  rw [Nat.mod_eq_of_lt (by omega)] at h1
  have : a = i := BitVec.eq_of_toNat_eq (by omega)
  exact ⟨c, by rw [e1, this]⟩

/-- C49: with no LEDs the function divides by zero. -/
theorem mirror_empty (i : U8) : mirrorIndex i 0 = .error .divByZero := rfl

example : mirrorIndex 4 24 = .ok (4, 12) ∧ mirrorIndex 19 24 = .ok (4, 12) := by decide

/-! ## C50: position on a circle -/

/-- C50: the angle of LED `i` of `n` is `i/n` of a full turn of 255 steps, rounded down:
below 255 and 0 at LED 0. -/
theorem circle_angle (count index : U8) (hi : index.toNat < count.toNat) :
    ∃ a r, getPosOnCircle count index = .ok (a, r) ∧
      a.toNat = index.toNat * 255 / count.toNat ∧ a.toNat < 255 ∧
      (index.toNat = 0 → a.toNat = 0) := by
  have hne : count ≠ 0 := by
    intro h; rw [h] at hi; exact absurd hi (Nat.not_lt_zero _)
  have hlt : index.toNat * 255 / count.toNat < 255 :=
    (Nat.div_lt_iff_lt_mul (by omega)).2 (by omega)
  refine ⟨_, _, by rw [getPosOnCircle, if_neg hne], ?_, ?_, ?_⟩
  · rw [BitVec.toNat_ofNat, Nat.mod_eq_of_lt (Nat.lt_trans hlt (by decide))]
  · rw [BitVec.toNat_ofNat, Nat.mod_eq_of_lt (Nat.lt_trans hlt (by decide))]; exact hlt
  · intro h; rw [h]; simp

/-- C50: the angle is monotone along the strip. -/
theorem circle_angle_monotone (count i j : U8) (hij : i.toNat ≤ j.toNat)
    (hj : j.toNat < count.toNat) {a b r s : U8}
    (ha : getPosOnCircle count i = .ok (a, r)) (hb : getPosOnCircle count j = .ok (b, s)) :
    a.toNat ≤ b.toNat := by
  obtain ⟨a', r', e1, h1, -⟩ := circle_angle count i (by omega)
  obtain ⟨b', s', e2, h2, -⟩ := circle_angle count j (by omega)
  rw [ha] at e1; rw [hb] at e2
  cases e1; cases e2
  rw [h1, h2]
  exact Nat.div_le_div_right (by omega)

/-- C50: the radius is `n · 32 / (2π)` (with 2π taken as 6.283), rounded down, for up to 50
LEDs; from 51 LEDs on it is not. -/
theorem circle_radius_iff (count index : U8) (hi : index.toNat < count.toNat) :
    ∃ a r, getPosOnCircle count index = .ok (a, r) ∧
      (r.toNat = count.toNat * 32 * 1000 / 6283 ↔ count.toNat ≤ 50) := by
  have hne : count ≠ 0 := by
    intro h; rw [h] at hi; exact absurd hi (Nat.not_lt_zero _)
  refine ⟨_, _, by rw [getPosOnCircle, if_neg hne], ?_⟩
  rw [BitVec.toNat_ofNat]
  omega

/-- The 52 LEDs of the UFO's rim get radius 8 instead of 264. -/
example : getPosOnCircle 52 13 = .ok (63, 8) ∧ getPosOnCircle 12 3 = .ok (63, 61) := by decide

/-! ## C69: noise -/

/-- C69: the noise does not depend on the state of the random generator. -/
theorem noise_ignores_generator (F : FastLED) (x y : U32) (rng rng' : U16) :
    perlinNoise F x y rng = perlinNoise F x y rng' := rfl

/-- The gradient vector of the tile corner `(x, y)`: two signed bytes drawn from the generator
seeded with the corner's hash. -/
def cornerGradient (F : FastLED) (x y : U32) : Int × Int :=
  let seed : U16 := (x + y * 7919).setWidth 16
  ((F.random8 seed).1.toInt, (F.random8 (F.random8 seed).2).1.toInt)

/-- C69: noise is the clamped, scaled interpolation of the contributions of the four corners
of the tile, computed without overflow. -/
theorem noise_exact {F : FastLED} (hF : F.Lawful) (x y : U32) (rng : U16) :
    let ix := x / 256
    let iy := y / 256
    let dx : Int := x.toNat % 256
    let dy : Int := y.toNat % 256
    let ex := (F.ease8InOutApprox (BitVec.ofNat 8 (x.toNat % 256))).toNat
    let ey := (F.ease8InOutApprox (BitVec.ofNat 8 (y.toNat % 256))).toNat
    let aa := contribution dx dy (cornerGradient F ix iy)
    let ab := contribution dx (dy - 256) (cornerGradient F ix (iy + 1))
    let ba := contribution (dx - 256) dy (cornerGradient F (ix + 1) iy)
    let bb := contribution (dx - 256) (dy - 256) (cornerGradient F (ix + 1) (iy + 1))
    ((perlinNoise F x y rng).1.toNat : Int) =
      clampByte (128 + 4 * lerp (lerp aa ba ex) (lerp ab bb ex) ey) := by
  intro ix iy dx dy ex ey aa ab ba bb
  have sh : ∀ z : U32, z >>> 8 = z / 256 := by
    intro z
    apply BitVec.eq_of_toNat_eq
    rw [BitVec.toNat_ushiftRight, BitVec.toNat_udiv, Nat.shiftRight_eq_div_pow]
    rfl
  have fr : ∀ z : U32, ((z - ((z >>> 8) <<< 8)).setWidth 16 : U16).toNat = z.toNat % 256 := by
    intro z
    have hz := z.isLt
    rw [BitVec.toNat_setWidth, BitVec.toNat_sub, BitVec.toNat_shiftLeft,
      BitVec.toNat_ushiftRight, Nat.shiftRight_eq_div_pow, Nat.shiftLeft_eq]
    omega
  have fr8 : ∀ z : U32, (((z - ((z >>> 8) <<< 8)).setWidth 16 : U16).setWidth 8 : U8) =
      BitVec.ofNat 8 (z.toNat % 256) := by
    intro z
    apply BitVec.eq_of_toNat_eq
    rw [BitVec.toNat_setWidth, fr, BitVec.toNat_ofNat]
  simp only [perlinNoise, fr, fr8]
  simp only [sh]
  have hdx : (0 : Int) ≤ dx ∧ dx ≤ 255 := by constructor <;> omega
  have hdy : (0 : Int) ≤ dy ∧ dy ≤ 255 := by constructor <;> omega
  obtain ⟨caa, laa, uaa⟩ := contribution_toInt (F.random8 (tileHash ix iy)).1
    (F.random8 (F.random8 (tileHash ix iy)).2).1 (dx := dx) (dy := dy)
    (by omega) (by omega) (by omega) (by omega)
  obtain ⟨cab, lab, uab⟩ := contribution_toInt (F.random8 (tileHash ix (iy + 1))).1
    (F.random8 (F.random8 (tileHash ix (iy + 1))).2).1 (dx := dx) (dy := -256 + dy)
    (by omega) (by omega) (by omega) (by omega)
  obtain ⟨cba, lba, uba⟩ := contribution_toInt (F.random8 (tileHash (ix + 1) iy)).1
    (F.random8 (F.random8 (tileHash (ix + 1) iy)).2).1 (dx := -256 + dx) (dy := dy)
    (by omega) (by omega) (by omega) (by omega)
  obtain ⟨cbb, lbb, ubb⟩ := contribution_toInt (F.random8 (tileHash (ix + 1) (iy + 1))).1
    (F.random8 (F.random8 (tileHash (ix + 1) (iy + 1))).2).1 (dx := -256 + dx)
    (dy := -256 + dy) (by omega) (by omega) (by omega) (by omega)
  have sx : dx - 256 = -256 + dx := by omega
  have sy : dy - 256 = -256 + dy := by omega
  have key := noise_clamp hF _ _ _ _ (F.ease8InOutApprox (BitVec.ofNat 8 (x.toNat % 256)))
    (F.ease8InOutApprox (BitVec.ofNat 8 (y.toNat % 256)))
    (by rw [caa]; exact ⟨laa, uaa⟩) (by rw [cba]; exact ⟨lba, uba⟩)
    (by rw [cab]; exact ⟨lab, uab⟩) (by rw [cbb]; exact ⟨lbb, ubb⟩)
  simp only [caa, cab, cba, cbb] at key
  simp only [aa, ab, ba, bb, sx, sy]
  exact key

example : (perlinNoise FastLED.reference 1000 77777 0).1 = 140 := by decide +kernel

end Firefly.Props
