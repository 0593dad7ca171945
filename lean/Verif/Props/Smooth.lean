import Verif.Spec.Smooth
import Verif.Props.Math
import Verif.Props.Shapes

/-! # The noise is smooth (C123) -/

namespace Firefly.Props
open Spec

theorem lerp_approx (a b : Int) (f : Nat) :
    256 * lerp a b f - (256 * a + (b - a) * (1 + f)) ≤ 255 ∧
    (256 * a + (b - a) * (1 + f)) - 256 * lerp a b f ≤ 255 := by
  unfold lerp
  split
  · generalize (b - a) * (1 + (f : Int)) = z
    omega
  · have : (a - b) * (1 + (f : Int)) = - ((b - a) * (1 + f)) := by
      rw [← Int.neg_mul, Int.neg_sub]
    rw [this]
    generalize (b - a) * (1 + (f : Int)) = z
    omega

theorem lerp_full (a b : Int) : lerp a b 255 = b := by
  unfold lerp
  split <;> omega

theorem lerp_none {a b : Int} (h1 : b - a ≤ 512) (h2 : a - b ≤ 512) :
    lerp a b 0 - a ≤ 2 ∧ a - lerp a b 0 ≤ 2 := by
  unfold lerp
  split <;> omega

theorem lerp_between {a b lo hi : Int} {f : Nat} (hf : f ≤ 255) (ha : lo ≤ a ∧ a ≤ hi)
    (hb : lo ≤ b ∧ b ≤ hi) : lo ≤ lerp a b f ∧ lerp a b f ≤ hi := by
  have key : ∀ z : Int, 0 ≤ z → 0 ≤ z * (1 + f) / 256 ∧ z * (1 + f) / 256 ≤ z := by
    intro z hz
    have h1 : 0 ≤ z * (1 + f) := Int.mul_nonneg hz (by omega)
    have h2 : z * (1 + f) ≤ z * 256 := Int.mul_le_mul_of_nonneg_left (by omega) hz
    omega
  unfold lerp
  split
  · have := key (b - a) (by omega)
    omega
  · have := key (a - b) (by omega)
    omega

/-- Interpolating nearly the same numbers by nearly the same amount. -/
theorem lerp_close {a b a' b' d : Int} {e e' : Nat} (he : e ≤ e') (he' : e' ≤ e + 2)
    (h255 : e' ≤ 255) (ha : a - a' ≤ d ∧ a' - a ≤ d) (hb : b - b' ≤ d ∧ b' - b ≤ d)
    (hab : b - a ≤ 512 ∧ a - b ≤ 512) :
    256 * (lerp a b e - lerp a' b' e') ≤ 256 * d + 512 * (e' - e : Nat) + 510 ∧
    256 * (lerp a' b' e' - lerp a b e) ≤ 256 * d + 512 * (e' - e : Nat) + 510 := by
  have h1 := lerp_approx a b e
  have h2 := lerp_approx a' b' e'
  generalize lerp a b e = l at *
  generalize lerp a' b' e' = l' at *
  obtain ⟨k, rfl⟩ : ∃ k, e' = e + k := ⟨e' - e, by omega⟩
  rw [Nat.add_sub_cancel_left]
  have hmix : ∀ x y : Int, x ≤ d → y ≤ d →
      (256 - (1 + ((e + k : Nat) : Int))) * x + (1 + ((e + k : Nat) : Int)) * y ≤ 256 * d := by
    intro x y hx hy
    have h3 := Int.mul_le_mul_of_nonneg_left hx
      (show (0 : Int) ≤ 256 - (1 + ((e + k : Nat) : Int)) by omega)
    have h4 := Int.mul_le_mul_of_nonneg_left hy (show (0 : Int) ≤ 1 + ((e + k : Nat) : Int) by omega)
    have h5 : (256 - (1 + ((e + k : Nat) : Int))) * d + (1 + ((e + k : Nat) : Int)) * d = 256 * d := by
      rw [← Int.add_mul]; congr 1; omega
    omega
  have h3 := hmix (a - a') (b - b') ha.1 hb.1
  have h4 := hmix (a' - a) (b' - b) ha.2 hb.2
  have h5 : (b - a) * (k : Int) ≤ 512 * k := Int.mul_le_mul_of_nonneg_right hab.1 (by omega)
  have h6 : (a - b) * (k : Int) ≤ 512 * k := Int.mul_le_mul_of_nonneg_right hab.2 (by omega)
  -- everything is linear in these products
  have e1 : (b - a) * (1 + (e : Int)) - (b' - a') * (1 + ((e + k : Nat) : Int)) =
      (256 - (1 + ((e + k : Nat) : Int))) * (a - a') + (1 + ((e + k : Nat) : Int)) * (b - b')
        - 256 * (a - a') - (b - a) * k := by
    push_cast
    grind
  have e2 : (a - b) * (k : Int) = - ((b - a) * k) := by grind
  have e3 : (256 - (1 + ((e + k : Nat) : Int))) * (a' - a) + (1 + ((e + k : Nat) : Int)) * (b' - b) =
      - ((256 - (1 + ((e + k : Nat) : Int))) * (a - a') + (1 + ((e + k : Nat) : Int)) * (b - b')) := by
    grind
  rw [e3] at h4
  rw [e2] at h6
  omega

theorem gradient_range (F : FastLED) (x y : U32) :
    (-128 ≤ (cornerGradient F x y).1 ∧ (cornerGradient F x y).1 ≤ 127) ∧
    (-128 ≤ (cornerGradient F x y).2 ∧ (cornerGradient F x y).2 ≤ 127) := by
  have h : ∀ b : U8, -128 ≤ b.toInt ∧ b.toInt ≤ 127 := by
    intro b
    have := BitVec.le_toInt b
    have := BitVec.toInt_lt (x := b)
    omega
  exact ⟨h _, h _⟩

/-- Gradients of corners with the same hash. -/
theorem gradient_congr (F : FastLED) {x y x' y' : U32}
    (h : (x + y * 7919).toNat % 65536 = (x' + y' * 7919).toNat % 65536) :
    cornerGradient F x y = cornerGradient F x' y' := by
  have : ((x + y * 7919).setWidth 16 : U16) = (x' + y' * 7919).setWidth 16 := by
    apply BitVec.eq_of_toNat_eq
    rw [BitVec.toNat_setWidth, BitVec.toNat_setWidth]
    exact h
  unfold cornerGradient
  rw [this]

theorem mul_range {a b : Int} (ha : -256 ≤ a ∧ a ≤ 256) (hb : -128 ≤ b ∧ b ≤ 127) :
    -32768 ≤ a * b ∧ a * b ≤ 32768 := by
  have h1 := Int.mul_nonneg (show 0 ≤ 256 - a by omega) (show 0 ≤ b + 128 by omega)
  have h2 := Int.mul_nonneg (show 0 ≤ 256 + a by omega) (show 0 ≤ b + 128 by omega)
  have h3 := Int.mul_nonneg (show 0 ≤ 256 - a by omega) (show 0 ≤ 128 - b by omega)
  have h4 := Int.mul_nonneg (show 0 ≤ 256 + a by omega) (show 0 ≤ 128 - b by omega)
  grind

theorem contribution_range {dx dy : Int} {g : Int × Int} (hx : -256 ≤ dx ∧ dx ≤ 256)
    (hy : -256 ≤ dy ∧ dy ≤ 256) (hg : (-128 ≤ g.1 ∧ g.1 ≤ 127) ∧ (-128 ≤ g.2 ∧ g.2 ≤ 127)) :
    -256 ≤ contribution dx dy g ∧ contribution dx dy g ≤ 256 := by
  have h1 := mul_range hx hg.1
  have h2 := mul_range hy hg.2
  unfold contribution
  omega

theorem contribution_right (dx dy : Int) {g : Int × Int}
    (hg : (-128 ≤ g.1 ∧ g.1 ≤ 127) ∧ (-128 ≤ g.2 ∧ g.2 ≤ 127)) :
    contribution dx dy g - contribution (dx + 1) dy g ≤ 1 ∧
    contribution (dx + 1) dy g - contribution dx dy g ≤ 1 := by
  unfold contribution
  rw [Int.add_mul dx 1, Int.one_mul]
  omega

theorem contribution_up (dx dy : Int) {g : Int × Int}
    (hg : (-128 ≤ g.1 ∧ g.1 ≤ 127) ∧ (-128 ≤ g.2 ∧ g.2 ≤ 127)) :
    contribution dx dy g - contribution dx (dy + 1) g ≤ 1 ∧
    contribution dx (dy + 1) g - contribution dx dy g ≤ 1 := by
  unfold contribution
  rw [Int.add_mul dy 1, Int.one_mul]
  omega

/-- Signed bytes. -/
abbrev GradOk (g : Int × Int) : Prop := (-128 ≤ g.1 ∧ g.1 ≤ 127) ∧ (-128 ≤ g.2 ∧ g.2 ≤ 127)

/-- One side of a tile, interpolated along `x`. -/
abbrev side (g h : Int × Int) (dx dy : Int) (e : Nat) : Int :=
  lerp (contribution dx dy g) (contribution (dx - 256) dy h) e

theorem side_range {g h : Int × Int} {dx dy : Int} {e : Nat} (hg : GradOk g) (hh : GradOk h)
    (hx : 0 ≤ dx ∧ dx ≤ 255) (hy : -256 ≤ dy ∧ dy ≤ 256) (he : e ≤ 255) :
    -256 ≤ side g h dx dy e ∧ side g h dx dy e ≤ 256 :=
  lerp_between he (contribution_range (by omega) hy hg) (contribution_range (by omega) hy hh)

/-- A step to the right inside a tile. -/
theorem side_right {g h : Int × Int} {dx dy : Int} {e e' : Nat} (hg : GradOk g) (hh : GradOk h)
    (hx : 0 ≤ dx ∧ dx ≤ 254) (hy : -256 ≤ dy ∧ dy ≤ 256) (he : e ≤ e') (he' : e' ≤ e + 2)
    (h255 : e' ≤ 255) :
    side g h dx dy e - side g h (dx + 1) dy e' ≤ 6 ∧
    side g h (dx + 1) dy e' - side g h dx dy e ≤ 6 := by
  have r1 := contribution_range (dx := dx) (dy := dy) (by omega) hy hg
  have r2 := contribution_range (dx := dx - 256) (dy := dy) (by omega) hy hh
  have c1 := contribution_right dx dy hg
  have c2 := contribution_right (dx - 256) dy hh
  rw [show dx - 256 + 1 = dx + 1 - 256 by omega] at c2
  have := lerp_close he he' h255 c1 c2 ⟨by omega, by omega⟩
  unfold side
  omega

/-- A step to the right into the next tile. -/
theorem side_right_border {g h k : Int × Int} {dy : Int} (hh : GradOk h)
    (hk : GradOk k) (hy : -256 ≤ dy ∧ dy ≤ 256) :
    side g h 255 dy 255 - side h k 0 dy 0 ≤ 3 ∧ side h k 0 dy 0 - side g h 255 dy 255 ≤ 3 := by
  have r1 := contribution_range (dx := 0) (dy := dy) (by omega) hy hh
  have r2 := contribution_range (dx := 0 - 256) (dy := dy) (by omega) hy hk
  have c := contribution_right (-1) dy hh
  have l := lerp_none (a := contribution 0 dy h) (b := contribution (0 - 256) dy k)
    (by omega) (by omega)
  unfold side
  rw [lerp_full]
  rw [show (-1 : Int) + 1 = 0 by omega] at c
  rw [show (255 : Int) - 256 = -1 by omega]
  omega

theorem side_up {g h : Int × Int} {dx dy : Int} {e : Nat} (hg : GradOk g) (hh : GradOk h)
    (hx : 0 ≤ dx ∧ dx ≤ 255) (hy : -256 ≤ dy ∧ dy ≤ 255) (h255 : e ≤ 255) :
    side g h dx dy e - side g h dx (dy + 1) e ≤ 2 ∧
    side g h dx (dy + 1) e - side g h dx dy e ≤ 2 := by
  have r1 := contribution_range (dx := dx) (dy := dy) (by omega) (by omega) hg
  have r2 := contribution_range (dx := dx - 256) (dy := dy) (by omega) (by omega) hh
  have := lerp_close (Nat.le_refl e) (by omega) h255 (contribution_up dx dy hg)
    (contribution_up (dx - 256) dy hh) ⟨by omega, by omega⟩
  unfold side
  omega

/-- The interpolated value in a tile with the given corner gradients. -/
abbrev tile (aa ba ab bb : Int × Int) (dx dy : Int) (ex ey : Nat) : Int :=
  lerp (side aa ba dx dy ex) (side ab bb dx (dy - 256) ex) ey

theorem noise_tile {F : FastLED} (hF : F.Lawful) (x y : U32) (rng : U16) :
    ((perlinNoise F x y rng).1.toNat : Int) = clampByte (128 + 4 *
      tile (cornerGradient F (x / 256) (y / 256)) (cornerGradient F (x / 256 + 1) (y / 256))
        (cornerGradient F (x / 256) (y / 256 + 1)) (cornerGradient F (x / 256 + 1) (y / 256 + 1))
        (x.toNat % 256 : Nat) (y.toNat % 256 : Nat)
        (F.ease8InOutApprox (BitVec.ofNat 8 (x.toNat % 256))).toNat
        (F.ease8InOutApprox (BitVec.ofNat 8 (y.toNat % 256))).toNat) :=
  noise_exact hF x y rng

theorem clampByte_close {a b : Int} (h1 : a - b ≤ 7) (h2 : b - a ≤ 7) :
    (clampByte (128 + 4 * a) - clampByte (128 + 4 * b)).natAbs ≤ 28 := by
  unfold clampByte
  omega

/-- The position along one axis after a step: in the same tile, or at the begin of the next. -/
theorem axis_step (x : U32) :
    (x.toNat % 256 < 255 ∧ (x + 1) / 256 = x / 256 ∧ (x + 1).toNat % 256 = x.toNat % 256 + 1) ∨
    (x.toNat % 256 = 255 ∧ (x + 1).toNat % 256 = 0 ∧
      ((x + 1) / 256 = x / 256 + 1 ∨ ((x + 1) / 256 = 0 ∧ x / 256 + 1 = 16777216))) := by
  have hx := x.isLt
  have hs : (x + 1).toNat = (x.toNat + 1) % 4294967296 := by
    rw [BitVec.toNat_add]; rfl
  have hd : ∀ z : U32, (z / 256).toNat = z.toNat / 256 := by
    intro z; rw [BitVec.toNat_udiv]; rfl
  have ha : (x / 256 + 1).toNat = (x.toNat / 256 + 1) % 4294967296 := by
    rw [BitVec.toNat_add, hd]; rfl
  by_cases h : x.toNat % 256 < 255
  · left
    refine ⟨h, ?_, by omega⟩
    apply BitVec.eq_of_toNat_eq
    rw [hd, hd]
    omega
  · right
    refine ⟨by omega, by omega, ?_⟩
    by_cases hw : x.toNat = 4294967295
    · right
      constructor
      · apply BitVec.eq_of_toNat_eq
        rw [hd, hs, hw]; rfl
      · apply BitVec.eq_of_toNat_eq
        rw [ha, hw]; rfl
    · left
      apply BitVec.eq_of_toNat_eq
      rw [hd, ha]
      omega

theorem gradient_next_x (F : FastLED) {x : U32} (y : U32)
    (h : (x + 1) / 256 = x / 256 + 1 ∨ ((x + 1) / 256 = 0 ∧ x / 256 + 1 = 16777216)) :
    cornerGradient F ((x + 1) / 256) y = cornerGradient F (x / 256 + 1) y := by
  rcases h with h | ⟨h1, h2⟩
  · rw [h]
  · rw [h1, h2]
    apply gradient_congr
    rw [BitVec.toNat_add, BitVec.toNat_add]
    generalize (y * 7919).toNat = z
    rw [show (0 : U32).toNat = 0 from rfl, show (16777216 : U32).toNat = 16777216 from rfl]
    omega

theorem gradient_next_y (F : FastLED) (x : U32) {y : U32}
    (h : (y + 1) / 256 = y / 256 + 1 ∨ ((y + 1) / 256 = 0 ∧ y / 256 + 1 = 16777216)) :
    cornerGradient F x ((y + 1) / 256) = cornerGradient F x (y / 256 + 1) := by
  rcases h with h | ⟨h1, h2⟩
  · rw [h]
  · rw [h1, h2]
    apply gradient_congr
    rw [BitVec.toNat_add, BitVec.toNat_add]
    rw [show (0 * 7919 : U32).toNat = 0 from rfl,
      show (16777216 * 7919 : U32).toNat = 4009754624 from rfl]
    omega

theorem ease_step {F : FastLED} (hE : SmoothEase F) {n : Nat} (h : n < 255) :
    (F.ease8InOutApprox (BitVec.ofNat 8 n)).toNat ≤
      (F.ease8InOutApprox (BitVec.ofNat 8 (n + 1))).toNat ∧
    (F.ease8InOutApprox (BitVec.ofNat 8 (n + 1))).toNat ≤
      (F.ease8InOutApprox (BitVec.ofNat 8 n)).toNat + 2 := by
  have e : BitVec.ofNat 8 (n + 1) = BitVec.ofNat 8 n + 1 := by
    apply BitVec.eq_of_toNat_eq
    rw [BitVec.toNat_add, BitVec.toNat_ofNat, BitVec.toNat_ofNat,
      show (1 : U8).toNat = 1 from rfl]
    omega
  rw [e]
  apply hE.step
  rw [BitVec.toNat_ofNat]
  omega

/-- C123: the noise at neighbouring points differs by at most 28 of 255, also across the border of
a tile and where the coordinates wrap. -/
theorem noise_smooth {F : FastLED} (hF : F.Lawful) (hE : SmoothEase F) (x y : U32) (rng : U16) :
    (((perlinNoise F (x + 1) y rng).1.toNat : Int) - (perlinNoise F x y rng).1.toNat).natAbs ≤ 28 ∧
    (((perlinNoise F x (y + 1) rng).1.toNat : Int) - (perlinNoise F x y rng).1.toNat).natAbs ≤ 28 := by
  have b : ∀ e : U8, e.toNat ≤ 255 := fun e => by have := e.isLt; omega
  have hx : (0 : Int) ≤ (x.toNat % 256 : Nat) ∧ ((x.toNat % 256 : Nat) : Int) ≤ 255 := by omega
  have hy : (0 : Int) ≤ (y.toNat % 256 : Nat) ∧ ((y.toNat % 256 : Nat) : Int) ≤ 255 := by omega
  have gr := gradient_range F
  constructor
  · rw [noise_tile hF, noise_tile hF]
    rcases axis_step x with ⟨h1, h2, h3⟩ | ⟨h1, h2, h3⟩
    · have s := ease_step hE h1
      rw [h2, h3]
      have q1 := side_right (gr (x / 256) (y / 256)) (gr (x / 256 + 1) (y / 256))
        (dx := (x.toNat % 256 : Nat)) (dy := (y.toNat % 256 : Nat)) (by omega) (by omega)
        s.1 s.2 (b _)
      have q2 := side_right (gr (x / 256) (y / 256 + 1)) (gr (x / 256 + 1) (y / 256 + 1))
        (dx := (x.toNat % 256 : Nat)) (dy := (y.toNat % 256 : Nat) - 256) (by omega) (by omega)
        s.1 s.2 (b _)
      have r1 := side_range (gr (x / 256) (y / 256)) (gr (x / 256 + 1) (y / 256))
        (dy := (y.toNat % 256 : Nat)) hx (by omega)
        (b (F.ease8InOutApprox (BitVec.ofNat 8 (x.toNat % 256))))
      have r2 := side_range (gr (x / 256) (y / 256 + 1)) (gr (x / 256 + 1) (y / 256 + 1))
        (dy := (y.toNat % 256 : Nat) - 256) hx (by omega)
        (b (F.ease8InOutApprox (BitVec.ofNat 8 (x.toNat % 256))))
      have q := lerp_close (Nat.le_refl _) (Nat.le_add_right _ 2)
        (b (F.ease8InOutApprox (BitVec.ofNat 8 (y.toNat % 256)))) q1 q2 ⟨by omega, by omega⟩
      rw [Nat.sub_self] at q
      rw [show (((x.toNat % 256 + 1 : Nat)) : Int) = (x.toNat % 256 : Nat) + 1 from rfl]
      exact clampByte_close (by unfold tile; omega) (by unfold tile; omega)
    · rw [h1, h2, gradient_next_x F _ h3, gradient_next_x F _ h3,
        show BitVec.ofNat 8 255 = 255 from rfl, show BitVec.ofNat 8 0 = 0 from rfl,
        hE.first, hE.last, show (0 : U8).toNat = 0 from rfl, show (255 : U8).toNat = 255 from rfl,
        show ((0 : Nat) : Int) = 0 from rfl, show ((255 : Nat) : Int) = 255 from rfl]
      have q1 := side_right_border (g := cornerGradient F (x / 256) (y / 256))
        (gr (x / 256 + 1) (y / 256)) (gr ((x + 1) / 256 + 1) (y / 256))
        (dy := (y.toNat % 256 : Nat)) (by omega)
      have q2 := side_right_border (g := cornerGradient F (x / 256) (y / 256 + 1))
        (gr (x / 256 + 1) (y / 256 + 1)) (gr ((x + 1) / 256 + 1) (y / 256 + 1))
        (dy := (y.toNat % 256 : Nat) - 256) (by omega)
      have r1 := side_range (gr (x / 256) (y / 256)) (gr (x / 256 + 1) (y / 256))
        (dx := 255) (dy := (y.toNat % 256 : Nat)) (by omega) (by omega) (Nat.le_refl 255)
      have r2 := side_range (gr (x / 256) (y / 256 + 1)) (gr (x / 256 + 1) (y / 256 + 1))
        (dx := 255) (dy := (y.toNat % 256 : Nat) - 256) (by omega) (by omega) (Nat.le_refl 255)
      have q := lerp_close (Nat.le_refl _) (Nat.le_add_right _ 2)
        (b (F.ease8InOutApprox (BitVec.ofNat 8 (y.toNat % 256)))) q1 q2 ⟨by omega, by omega⟩
      rw [Nat.sub_self] at q
      exact clampByte_close (by unfold tile; omega) (by unfold tile; omega)
  · rw [noise_tile hF, noise_tile hF]
    have bx := b (F.ease8InOutApprox (BitVec.ofNat 8 (x.toNat % 256)))
    generalize (F.ease8InOutApprox (BitVec.ofNat 8 (x.toNat % 256))).toNat = ex at *
    rcases axis_step y with ⟨h1, h2, h3⟩ | ⟨h1, h2, h3⟩
    · have s := ease_step hE h1
      rw [h2, h3]
      have q1 := side_up (gr (x / 256) (y / 256)) (gr (x / 256 + 1) (y / 256))
        (dy := (y.toNat % 256 : Nat)) hx (by omega) bx
      have q2 := side_up (gr (x / 256) (y / 256 + 1)) (gr (x / 256 + 1) (y / 256 + 1))
        (dy := (y.toNat % 256 : Nat) - 256) hx (by omega) bx
      have r1 := side_range (gr (x / 256) (y / 256)) (gr (x / 256 + 1) (y / 256))
        (dy := (y.toNat % 256 : Nat)) hx (by omega) bx
      have r2 := side_range (gr (x / 256) (y / 256 + 1)) (gr (x / 256 + 1) (y / 256 + 1))
        (dy := (y.toNat % 256 : Nat) - 256) hx (by omega) bx
      have q := lerp_close s.1 s.2 (b _) q1 q2 ⟨by omega, by omega⟩
      rw [show ((y.toNat % 256 : Nat) : Int) - 256 + 1 = (y.toNat % 256 : Nat) + 1 - 256 by omega] at q
      rw [show (((y.toNat % 256 + 1 : Nat)) : Int) = (y.toNat % 256 : Nat) + 1 from rfl]
      exact clampByte_close (by unfold tile; omega) (by unfold tile; omega)
    · rw [h1, h2, gradient_next_y F _ h3, gradient_next_y F _ h3,
        show BitVec.ofNat 8 255 = 255 from rfl, show BitVec.ofNat 8 0 = 0 from rfl,
        hE.first, hE.last, show (0 : U8).toNat = 0 from rfl, show (255 : U8).toNat = 255 from rfl,
        show ((0 : Nat) : Int) = 0 from rfl, show ((255 : Nat) : Int) = 255 from rfl]
      have q2 := side_up (gr (x / 256) (y / 256 + 1)) (gr (x / 256 + 1) (y / 256 + 1))
        (dy := -1) hx (by omega) bx
      have r1 := side_range (gr (x / 256) (y / 256 + 1)) (gr (x / 256 + 1) (y / 256 + 1))
        (dy := 0) hx (by omega) bx
      have r2 := side_range (gr (x / 256) ((y + 1) / 256 + 1)) (gr (x / 256 + 1) ((y + 1) / 256 + 1))
        (dy := 0 - 256) hx (by omega) bx
      have l := lerp_none (Int.le_trans (Int.sub_le_sub r2.2 r1.1) (by decide))
        (Int.le_trans (Int.sub_le_sub r1.2 r2.1) (by decide))
      unfold tile
      rw [lerp_full, show (255 : Int) - 256 = -1 from rfl]
      rw [show (-1 : Int) + 1 = 0 by omega] at q2
      exact clampByte_close (by omega) (by omega)

/-- C123: the noise field between two points, one `a` to the right of and `b` above the other. -/
theorem noise_far {F : FastLED} (hF : F.Lawful) (hE : SmoothEase F) (x y : U32) (a b : Nat)
    (rng : U16) :
    (((perlinNoise F (x + BitVec.ofNat 32 a) (y + BitVec.ofNat 32 b) rng).1.toNat : Int) -
      (perlinNoise F x y rng).1.toNat).natAbs ≤ 28 * (a + b) := by
  have succ : ∀ (z : U32) n, z + BitVec.ofNat 32 (n + 1) = z + BitVec.ofNat 32 n + 1 := by
    intro z n
    rw [BitVec.ofNat_add, BitVec.add_assoc]
    rfl
  induction b with
  | zero =>
    induction a with
    | zero => simp
    | succ a ih =>
      have := (noise_smooth hF hE (x + BitVec.ofNat 32 a) (y + BitVec.ofNat 32 0) rng).1
      rw [succ]
      omega
  | succ b ih =>
    have := (noise_smooth hF hE (x + BitVec.ofNat 32 a) (y + BitVec.ofNat 32 b) rng).2
    rw [succ]
    omega

/-- C123: the brightness of the Rorschach pattern of a palette of one colour changes by at most
56 of 255 within 8 ms. -/
theorem rorschach_smooth {F : FastLED} (hF : F.Lawful) (hE : SmoothEase F) (plat : Platform)
    (o : U16) (led : U8) (t : U32) (d : Nat) (hd : d ≤ 8) (strip : Strip) (pkt : Packet)
    (rng rng' : U16) (hclock : t.toNat + o.toNat + d < 2 ^ 32) (hpkt : NamesPalette plat pkt)
    {p : Palette} (hp : palettes[pkt.data[2].toNat]? = some p) (hone : p.length = 1) :
    ∃ c c' r r', (Effect.rorschach o).getColour F plat led t strip pkt rng = .ok (.hsv c, r) ∧
      (Effect.rorschach o).getColour F plat led (t + BitVec.ofNat 32 d) strip pkt rng' =
        .ok (.hsv c', r') ∧
      c.h = c'.h ∧ c.s = c'.s ∧ ((c.v.toNat : Int) - c'.v.toNat).natAbs ≤ 56 := by
  obtain ⟨c, h1, h2, -⟩ := rorschach_pattern F plat o led t strip pkt rng hpkt hp
  obtain ⟨c', h1', h2', -⟩ := rorschach_pattern F plat o led (t + BitVec.ofNat 32 d) strip pkt
    rng' hpkt hp
  obtain ⟨b, hb, hc⟩ := h2 hone
  obtain ⟨b', hb', hc'⟩ := h2' hone
  rw [hb] at hb'
  cases hb'
  refine ⟨c, c', _, _, h1, h1', by rw [hc, hc'], by rw [hc, hc'], ?_⟩
  rw [hc, hc']
  show (((perlinNoise F _ _ rng).1.toNat : Int) - (perlinNoise F _ _ rng').1.toNat).natAbs ≤ 56
  have ht : (t + BitVec.ofNat 32 d).toNat = t.toNat + d := by
    rw [BitVec.toNat_add, BitVec.toNat_ofNat]
    omega
  rw [ht, Nat.mod_eq_of_lt (show t.toNat + o.toNat < 2 ^ 32 by omega),
    Nat.mod_eq_of_lt (show t.toNat + d + o.toNat < 2 ^ 32 by omega),
    noise_ignores_generator F _ _ rng' rng]
  generalize fromMiddle strip led.toNat = m
  generalize hs : t.toNat + o.toNat = s
  rw [show t.toNat + d + o.toNat = s + d by omega]
  obtain ⟨k, hk, hk1⟩ : ∃ k, (s + d) / 8 = s / 8 + k ∧ k ≤ 1 := ⟨(s + d) / 8 - s / 8, by omega, by omega⟩
  have hplace : (rorschachPlace m (s + d)) =
      ((rorschachPlace m s).1 + k, (rorschachPlace m s).2 + k) := by
    unfold rorschachPlace
    rw [hk]
    split <;> (apply Prod.ext <;> simp <;> omega)
  rw [hplace]
  have hof : ∀ z : Int, BitVec.ofInt 32 (z + k) = BitVec.ofInt 32 z + BitVec.ofNat 32 k := by
    intro z
    rw [BitVec.ofInt_add]
    rfl
  simp only [hof]
  have := noise_far hF hE (BitVec.ofInt 32 (rorschachPlace m s).1)
    (BitVec.ofInt 32 (rorschachPlace m s).2) k k rng
  omega

/-- The library's easing curve is smooth. -/
theorem reference_smooth : SmoothEase FastLED.reference where
  first := by decide
  last := by decide
  step := by decide +kernel

/-- Concrete cases: across the border of a tile, and where the coordinate wraps. -/
example : [253, 254, 255, 256, 257, 258].map (fun x : Nat =>
      (perlinNoise FastLED.reference (BitVec.ofNat 32 x) 100 0).1.toNat) =
        [120, 116, 116, 120, 120, 124] ∧
    [4294967294, 4294967295, 4294967296, 4294967297].map (fun x : Nat =>
      (perlinNoise FastLED.reference (BitVec.ofNat 32 x) 100 0).1.toNat) = [92, 92, 96, 96] := by
  decide +kernel

/-- The hypotheses are met: the reference library, and a palette of one colour. -/
example : FastLED.reference.Lawful ∧ SmoothEase FastLED.reference ∧
    NamesPalette .host (shapePacket 1) ∧
    (palettes[(shapePacket 1).data[2].toNat]?.map (·.length)) = some 1 :=
  ⟨FastLED.reference_lawful, reference_smooth, ⟨fun _ => by decide, by decide⟩, by decide⟩

end Firefly.Props
