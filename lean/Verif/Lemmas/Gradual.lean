import Verif.Lemmas.Palette
import Verif.Spec.Gradual
import Mathlib.Tactic.Ring
import Mathlib.Tactic.Linarith
import Mathlib.Tactic.Zify
import Mathlib.Algebra.Order.Ring.Abs

/-! # Gradual changes: lemmas -/

namespace Firefly
open Spec

/-- The polygon through the points `(R i, R (A i))`. -/
def polygon (A : Nat → Int) (R x : Nat) : Int := R * A (x / R) + (A (x / R + 1) - A (x / R)) * (x % R : Nat)

theorem polygon_step {A : Nat → Int} {K : Int} (hA : ∀ i, |A (i + 1) - A i| ≤ K) {R : Nat} (hR : 0 < R) (x : Nat) :
    |polygon A R (x + 1) - polygon A R x| ≤ K := by
  have hlt := Nat.mod_lt x hR
  have hx := Nat.div_add_mod x R
  unfold polygon
  by_cases h : x % R + 1 < R
  · have e1 : (x + 1) / R = x / R := by
      apply Nat.div_eq_of_lt_le
      · rw [Nat.mul_comm]; omega
      · rw [Nat.add_mul, Nat.one_mul, Nat.mul_comm]; omega
    have e2 : (x + 1) % R = x % R + 1 := by
      have := Nat.div_add_mod (x + 1) R
      rw [e1] at this
      omega
    rw [e1, e2]
    have := hA (x / R)
    push_cast
    convert this using 2
    ring
  · have hr : x % R + 1 = R := by omega
    have e1 : (x + 1) / R = x / R + 1 := by
      apply Nat.div_eq_of_lt_le
      · rw [Nat.add_mul, Nat.one_mul, Nat.mul_comm]; omega
      · rw [Nat.add_mul, Nat.add_mul, Nat.one_mul, Nat.mul_comm]; omega
    have e2 : (x + 1) % R = 0 := by
      have := Nat.div_add_mod (x + 1) R
      rw [e1, Nat.mul_add, Nat.mul_one] at this
      omega
    rw [e1, e2]
    have := hA (x / R)
    have hr' : ((x % R : Nat) : Int) = R - 1 := by omega
    rw [hr']
    convert this using 2
    push_cast
    ring

theorem polygon_far {A : Nat → Int} {K : Int} (hA : ∀ i, |A (i + 1) - A i| ≤ K) {R : Nat} (hR : 0 < R)
    (x d : Nat) : |polygon A R (x + d) - polygon A R x| ≤ K * d := by
  induction d with
  | zero => simp
  | succ d ih =>
    have h1 := polygon_step hA hR (x + d)
    have h2 := abs_add_le (polygon A R (x + d + 1) - polygon A R (x + d)) (polygon A R (x + d) - polygon A R x)
    rw [show polygon A R (x + d + 1) - polygon A R (x + d) + (polygon A R (x + d) - polygon A R x) =
      polygon A R (x + (d + 1)) - polygon A R x by rw [Nat.add_assoc]; ring] at h2
    push_cast
    linarith

theorem polygon_corner (A : Nat → Int) {R : Nat} (hR : 0 < R) (i : Nat) : polygon A R (i * R) = R * A i := by
  unfold polygon
  rw [Nat.mul_div_cancel _ hR, Nat.mul_mod_left]
  simp

/-- The number `z` is the point `x` of the polygon, up to rounding. -/
def Rounds (A : Nat → Int) (R x : Nat) (z : Int) : Prop := 2 * |R * z - polygon A R x| ≤ 3 * R

theorem rounds_apart {A : Nat → Int} {R x y : Nat} {z w u m : Int} (hx : Rounds A R x z) (hy : Rounds A R y w)
    (h : |polygon A R x - polygon A R y + R * u| ≤ m) : R * |z - w + u| ≤ m + 3 * R := by
  unfold Rounds at hx hy
  rw [abs_le] at h
  have hx1 := le_abs_self (R * z - polygon A R x)
  have hx2 := neg_abs_le (R * z - polygon A R x)
  have hy1 := le_abs_self (R * w - polygon A R y)
  have hy2 := neg_abs_le (R * w - polygon A R y)
  have e : (R : Int) * |z - w + u| = |R * z - R * w + R * u| := by
    rw [← mul_sub, ← mul_add, abs_mul, abs_of_nonneg (Int.natCast_nonneg R)]
  rw [e, abs_le]
  constructor <;> linarith

theorem two_abs {x y : Int} (h1 : 2 * x ≤ y) (h2 : -(2 * x) ≤ y) : 2 * |x| ≤ y := by
  rcases abs_cases x with h | h <;> omega

theorem lerp_rounds {F : FastLED} (hF : F.Lawful) (a b t : U16) {R r : Nat} (hr : r < R)
    (ht : t.toNat = r * 65535 / R) (hd : a.toNat ≤ b.toNat + 255) (hd' : b.toNat ≤ a.toNat + 255) :
    2 * |(R : Int) * (F.lerp16by16 a b t).toNat - (R * a.toNat + ((b.toNat : Int) - a.toNat) * r)| ≤ 3 * R := by
  have hR : 0 < R := by omega
  have t1 : t.toNat * R ≤ r * 65535 := by rw [ht]; exact Nat.div_mul_le_self _ _
  have t2 : r * 65535 < (t.toNat + 1) * R := by
    rw [ht, Nat.mul_comm]
    exact Nat.lt_mul_of_div_lt (Nat.lt_succ_self _) hR |>.trans_eq (by rw [Nat.mul_comm])
  have key : ∀ D, D ≤ 255 → ∀ m, m = D * (1 + t.toNat) / 65536 →
      2 * (R * m) ≤ 2 * (D * r) + 3 * R ∧ 2 * (D * r) ≤ 2 * (R * m) + 3 * R := by
    intro D hD m hm
    have m1 : m * 65536 ≤ D * (1 + t.toNat) := by rw [hm]; exact Nat.div_mul_le_self _ _
    have m2 : D * (1 + t.toNat) < 65536 * (m + 1) := by rw [hm]; exact Nat.lt_mul_div_succ _ (by decide)
    have a1 : m * 65536 * R ≤ D * (1 + t.toNat) * R := Nat.mul_le_mul_right _ m1
    have a2 : D * (t.toNat * R) ≤ D * (r * 65535) := Nat.mul_le_mul_left _ t1
    have a3 : D * (1 + t.toNat) * R ≤ 65536 * (m + 1) * R := Nat.mul_le_mul_right _ (Nat.le_of_lt m2)
    have a4 : D * (r * 65535) ≤ D * ((t.toNat + 1) * R) := Nat.mul_le_mul_left _ (Nat.le_of_lt t2)
    have a5 : D * R ≤ 255 * R := Nat.mul_le_mul_right _ hD
    have a6 : D * r ≤ D * R := Nat.mul_le_mul_left _ (Nat.le_of_lt hr)
    have e1 : D * (1 + t.toNat) * R = D * R + D * (t.toNat * R) := by ring
    have e2 : D * ((t.toNat + 1) * R) = D * R + D * (t.toNat * R) := by ring
    have e3 : m * 65536 * R = 65536 * (R * m) := by ring
    have e4 : 65536 * (m + 1) * R = 65536 * (R * m) + 65536 * R := by ring
    have e5 : D * (r * 65535) = 65535 * (D * r) := by ring
    generalize D * (t.toNat * R) = q at *
    generalize R * m = u at *
    generalize D * r = w at *
    generalize D * R = y at *
    omega
  rw [hF.lerp16by16]
  split
  · rename_i h
    rw [BitVec.lt_def] at h
    obtain ⟨k1, k2⟩ := key (b.toNat - a.toNat) (by omega) _ rfl
    generalize (b.toNat - a.toNat) * (1 + t.toNat) / 65536 = m at *
    have e : ((b.toNat : Int) - a.toNat) = ((b.toNat - a.toNat : Nat) : Int) := by omega
    rw [e]
    generalize b.toNat - a.toNat = D at *
    zify at k1 k2
    push_cast
    apply two_abs <;> linarith
  · rename_i h
    rw [BitVec.lt_def] at h
    have hle : (a.toNat - b.toNat) * (1 + t.toNat) / 65536 ≤ a.toNat - b.toNat := by
      apply Nat.div_le_of_le_mul
      rw [Nat.mul_comm]
      exact Nat.mul_le_mul_right _ (by have := t.isLt; omega)
    obtain ⟨k1, k2⟩ := key (a.toNat - b.toNat) (by omega) _ rfl
    generalize (a.toNat - b.toNat) * (1 + t.toNat) / 65536 = m at *
    have e : ((b.toNat : Int) - a.toNat) = -((a.toNat - b.toNat : Nat) : Int) := by omega
    rw [e, Nat.cast_sub (by omega)]
    generalize a.toNat - b.toNat = D at *
    zify at k1 k2
    apply two_abs <;> linarith

/-- The signed step from one hue to the next which the code takes. -/
def hueStep (a b : Nat) : Int :=
  if ((a : Int) - b).natAbs < 127 then b - a else if a < b then b - (a + 255) else b + 255 - a

theorem hueStep_le {a b : Nat} (ha : a < 256) (hb : b < 256) : |hueStep a b| ≤ 128 := by
  unfold hueStep
  rw [abs_le]
  split
  · omega
  · split <;> omega

/-- The hues of a list of colours, unrolled: neighbours differ by the step taken. -/
def unrolled (h : Nat → Nat) : Nat → Int
  | 0 => h 0
  | i + 1 => unrolled h i + hueStep (h i) (h (i + 1))

theorem unrolled_mod (h : Nat → Nat) (i : Nat) : ∃ k : Int, unrolled h i = h i + 255 * k := by
  induction i with
  | zero => exact ⟨0, by simp [unrolled]⟩
  | succ i ih =>
    obtain ⟨k, hk⟩ := ih
    rw [unrolled, hk, hueStep]
    split
    · exact ⟨k, by ring⟩
    · split
      · exact ⟨k - 1, by ring⟩
      · exact ⟨k + 1, by ring⟩

theorem rounds_corner (A : Nat → Int) {R x : Nat} (h : x % R = 0) : Rounds A R x (A (x / R)) := by
  unfold Rounds polygon
  rw [h]
  simp

theorem lerp8_rounds {F : FastLED} (hF : F.Lawful) (a b : U8) (t : U16) {R r : Nat} (hr : r < R)
    (ht : t.toNat = r * 65535 / R) :
    2 * |(R : Int) * ((F.lerp16by16 (a.setWidth 16) (b.setWidth 16) t).setWidth 8 : U8).toNat -
      (R * a.toNat + ((b.toNat : Int) - a.toNat) * r)| ≤ 3 * R := by
  have ha := a.isLt
  have hb := b.isLt
  have ea : (a.setWidth 16 : U16).toNat = a.toNat := by rw [BitVec.toNat_setWidth]; omega
  have eb : (b.setWidth 16 : U16).toNat = b.toNat := by rw [BitVec.toNat_setWidth]; omega
  have k := lerp_rounds hF (a.setWidth 16) (b.setWidth 16) t hr ht (by omega) (by omega)
  have hm := hF.lerp16_between (a.setWidth 16) (b.setWidth 16) t
  rw [ea, eb] at k hm
  rw [BitVec.toNat_setWidth, Nat.mod_eq_of_lt (by omega)]
  exact k

theorem lerpHue_rounds {F : FastLED} (hF : F.Lawful) (a b : U8) (t : U16) {R r : Nat} (hr : r < R)
    (ht : t.toNat = r * 65535 / R) :
    ∃ k : Int, 2 * |(R : Int) * ((Palette.lerpHue F a b t).toNat + 255 * k) -
      (R * a.toNat + hueStep a.toNat b.toNat * r)| ≤ 3 * R := by
  have ha := a.isLt
  have hb := b.isLt
  have ea : (a.setWidth 16 : U16).toNat = a.toNat := by rw [BitVec.toNat_setWidth]; omega
  have eb : (b.setWidth 16 : U16).toNat = b.toNat := by rw [BitVec.toNat_setWidth]; omega
  have c255 : (255 : U16).toNat = 255 := rfl
  have ea' : (a.setWidth 16 + 255 : U16).toNat = a.toNat + 255 := by
    rw [BitVec.toNat_add, ea, c255]; omega
  have eb' : (b.setWidth 16 + 255 : U16).toNat = b.toNat + 255 := by
    rw [BitVec.toNat_add, eb, c255]; omega
  have wrapped : ∀ x : U16, x.toNat ≤ 510 →
      ∃ k : Int, ((if (255 : U16) < x then x - 255 else x).setWidth 8 : U8).toNat + 255 * k = x.toNat := by
    intro x hx
    by_cases h : (255 : U16) < x
    · rw [if_pos h]
      rw [BitVec.lt_def, c255] at h
      refine ⟨1, ?_⟩
      rw [BitVec.toNat_setWidth, BitVec.toNat_sub_of_le (by rw [BitVec.le_def, c255]; omega), c255]
      omega
    · rw [if_neg h]
      rw [BitVec.lt_def, c255] at h
      refine ⟨0, ?_⟩
      rw [BitVec.toNat_setWidth]
      omega
  unfold Palette.lerpHue hueStep
  split
  · refine ⟨0, ?_⟩
    rw [mul_zero, add_zero]
    exact lerp8_rounds hF a b t hr ht
  · rename_i hge
    by_cases hlt : a < b
    · have hlt' : a.toNat < b.toNat := hlt
      simp only [if_pos hlt, if_pos hlt']
      have k := lerp_rounds hF (a.setWidth 16 + 255) (b.setWidth 16) t hr ht (by omega) (by omega)
      have hm := hF.lerp16_between (a.setWidth 16 + 255) (b.setWidth 16) t
      rw [ea', eb] at k hm
      generalize F.lerp16by16 (a.setWidth 16 + 255) (b.setWidth 16) t = x at *
      obtain ⟨j, hj⟩ := wrapped x (by omega)
      refine ⟨j - 1, ?_⟩
      rw [← hj] at k
      refine le_trans (le_of_eq ?_) k
      congr 2
      push_cast
      ring
    · have hlt' : ¬ a.toNat < b.toNat := hlt
      simp only [if_neg hlt, if_neg hlt']
      have k := lerp_rounds hF (a.setWidth 16) (b.setWidth 16 + 255) t hr ht (by omega) (by omega)
      have hm := hF.lerp16_between (a.setWidth 16) (b.setWidth 16 + 255) t
      rw [ea, eb'] at k hm
      generalize F.lerp16by16 (a.setWidth 16) (b.setWidth 16 + 255) t = x at *
      obtain ⟨j, hj⟩ := wrapped x (by omega)
      refine ⟨j, ?_⟩
      rw [← hj] at k
      refine le_trans (le_of_eq ?_) k
      congr 2

/-- What a gradient shows is the polygon through its colours, up to rounding. -/
theorem gradient_rounds {F : FastLED} (hF : F.Lawful) (p : Palette) (pos : U16) (wrap : Bool)
    (h2 : 2 ≤ p.length) (h255 : p.length ≤ 255) {c : CHSV} (hc : p.getGradient F pos wrap = .ok c) :
    Rounds (fun i => (p.at (by omega) i).s.toNat) (spacing p.length wrap) pos.toNat c.s.toNat ∧
    Rounds (fun i => (p.at (by omega) i).v.toNat) (spacing p.length wrap) pos.toNat c.v.toNat ∧
    ∃ k : Int, Rounds (unrolled fun i => (p.at (by omega) i).h.toNat) (spacing p.length wrap) pos.toNat
      (c.h.toNat + 255 * k) := by
  obtain ⟨t, ht, e⟩ := Palette.getGradient_eq F p pos wrap h2 h255
  rw [hc] at e
  have hs : 0 < spacing p.length wrap := by
    unfold spacing
    apply Nat.div_pos <;> cases wrap <;> simp <;> omega
  have hr := Nat.mod_lt pos.toNat hs
  injection e with e
  obtain ⟨k, hk⟩ := unrolled_mod (fun i => (p.at (by omega) i).h.toNat) (pos.toNat / spacing p.length wrap)
  by_cases h0 : pos.toNat % spacing p.length wrap = 0
  · simp only [h0, if_true] at e
    refine ⟨?_, ?_, k, ?_⟩
    · rw [e]; exact rounds_corner (fun i => ((p.at (by omega) i).s.toNat : Int)) h0
    · rw [e]; exact rounds_corner (fun i => ((p.at (by omega) i).v.toNat : Int)) h0
    · rw [e, ← hk]; exact rounds_corner _ h0
  · simp only [h0, if_false] at e
    refine ⟨?_, ?_, ?_⟩
    · rw [e]; exact lerp8_rounds hF _ _ t hr ht
    · rw [e]; exact lerp8_rounds hF _ _ t hr ht
    · obtain ⟨j, hj⟩ := lerpHue_rounds hF (p.at (by omega) (pos.toNat / spacing p.length wrap)).h
        (p.at (by omega) (pos.toNat / spacing p.length wrap + 1)).h t hr ht
      refine ⟨j + k, ?_⟩
      unfold Rounds polygon
      rw [unrolled, hk, e]
      refine le_trans (le_of_eq ?_) hj
      congr 2
      ring

theorem hues_apart_le {a b : Nat} {k : Int} {m : Nat} (h : |((a : Int) - b) + 255 * k| ≤ m) :
    huesApart a b ≤ m := by
  rw [abs_le] at h
  unfold huesApart forward
  omega

theorem channel_apart {A : Nat → Int} {R x y a b m : Nat} (hx : Rounds A R x a) (hy : Rounds A R y b)
    (h : |polygon A R x - polygon A R y| ≤ m) : apart a b * R ≤ m + 3 * R := by
  have k := rounds_apart (u := 0) (m := m) hx hy (by rw [mul_zero, add_zero]; exact h)
  have e : |(a : Int) - b + 0| = (apart a b : Int) := by
    unfold apart
    rcases abs_cases ((a : Int) - b + 0) with h | h <;> omega
  rw [e] at k
  rw [Nat.mul_comm]
  exact_mod_cast k

theorem hue_apart {A : Nat → Int} {R x y a b m : Nat} {k l w : Int} (hx : Rounds A R x (a + 255 * k))
    (hy : Rounds A R y (b + 255 * l)) (h : |polygon A R x - polygon A R y + R * (255 * w)| ≤ m) :
    huesApart a b * R ≤ m + 3 * R := by
  have j := rounds_apart hx hy h
  have e : (a + 255 * k - (b + 255 * l) + 255 * w : Int) = (a - b) + 255 * (k - l + w) := by ring
  rw [e] at j
  have i := hues_apart_le (a := a) (b := b) (k := k - l + w)
    (m := |(a : Int) - b + 255 * (k - l + w)|.natAbs) (by simp)
  have n : ((|(a : Int) - b + 255 * (k - l + w)|.natAbs : Nat) : Int) = |(a : Int) - b + 255 * (k - l + w)| := by simp
  rw [← n] at j
  have j : R * |(a : Int) - b + 255 * (k - l + w)|.natAbs ≤ m + 3 * R := by exact_mod_cast j
  exact Nat.le_trans (Nat.mul_le_mul_right R i) (by rw [Nat.mul_comm]; exact j)

theorem byte_step (a b : U8) : |(b.toNat : Int) - a.toNat| ≤ 255 := by
  have := a.isLt
  have := b.isLt
  rw [abs_le]
  omega

theorem unrolled_step {h : Nat → Nat} (hh : ∀ i, h i < 256) (i : Nat) :
    |unrolled h (i + 1) - unrolled h i| ≤ 128 := by
  rw [unrolled, add_sub_cancel_left]
  exact hueStep_le (hh _) (hh _)

theorem spacing_pos {n : Nat} (wrap : Bool) (h2 : 2 ≤ n) (h255 : n ≤ 255) : 0 < spacing n wrap := by
  unfold spacing
  apply Nat.div_pos <;> cases wrap <;> simp <;> omega

theorem polygon_near {A : Nat → Int} {K : Nat} (hA : ∀ i, |A (i + 1) - A i| ≤ K) {R : Nat} (hR : 0 < R) (x d : Nat) :
    |polygon A R x - polygon A R (x + d)| ≤ (K * d : Nat) := by
  rw [abs_sub_comm]
  exact_mod_cast polygon_far hA hR x d

/-- From `x` on to the end of the round and on to `y`. -/
theorem polygon_round {A : Nat → Int} {K : Nat} (hA : ∀ i, |A (i + 1) - A i| ≤ K) {n : Nat} (hn : 0 < n)
    (hn' : n ≤ 255) {w : Int} (hw : A n = A 0 - w) {x y : Nat} (hx : x ≤ 65535) :
    |polygon A (65535 / n) x - polygon A (65535 / n) y + (65535 / n : Nat) * w| ≤
      (K * (65535 - x + n + y) : Nat) := by
  have hR : 0 < 65535 / n := Nat.div_pos (by omega) hn
  have hl : 65535 < n * (65535 / n) + n := by
    have := Nat.lt_mul_div_succ 65535 hn
    rwa [Nat.mul_add, Nat.mul_one] at this
  have hu : n * (65535 / n) ≤ 65535 := Nat.mul_div_le _ _
  have h0 := polygon_far hA hR 0 y
  have e0 := polygon_corner A hR 0
  have en := polygon_corner A hR n
  rw [Nat.zero_mul] at e0
  rw [Nat.zero_add, e0] at h0
  have h1 : |polygon A (65535 / n) x - (65535 / n : Nat) * A n| ≤ (K * (65535 - x + n) : Nat) := by
    rw [← en]
    by_cases h : x ≤ n * (65535 / n)
    · have := polygon_far hA hR x (n * (65535 / n) - x)
      rw [Nat.add_sub_cancel' h, abs_sub_comm] at this
      refine le_trans this ?_
      exact_mod_cast Nat.mul_le_mul_left K (by omega)
    · have := polygon_far hA hR (n * (65535 / n)) (x - n * (65535 / n))
      rw [Nat.add_sub_cancel' (by omega)] at this
      refine le_trans this ?_
      exact_mod_cast Nat.mul_le_mul_left K (by omega)
  rw [hw] at h1
  have e : ((K * (65535 - x + n + y) : Nat) : Int) = (K * (65535 - x + n) : Nat) + K * y := by push_cast; ring
  rw [e]
  rw [abs_le] at h0 h1 ⊢
  constructor <;> linarith

end Firefly
