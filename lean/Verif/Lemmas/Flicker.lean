import Verif.Spec.Flicker
import Mathlib.Data.Nat.Find
import Mathlib.Tactic.Ring

/-! # Lemmas on counting flashes -/

namespace Firefly
open Spec

theorem flashes_cons₂ (lit : Nat → Bool) (t t' : Nat) (ts : List Nat) :
    flashes lit (t :: t' :: ts) = (if lit t = false ∧ lit t' = true then 1 else 0) + flashes lit (t' :: ts) := rfl

/-- What bounds the flashes between any two frames bounds all of them. -/
theorem flashes_le {lit : Nat → Bool} {q : Nat → Int}
    (hq : ∀ t t', t ≤ t' → q t ≤ q t' ∧ (lit t = false → lit t' = true → q t < q t')) :
    ∀ {l : List Nat} {a b : Nat}, FramesFrom a b l → (flashes lit l : Int) ≤ q b - q a
  | [], _, _, h => nomatch h.first
  | [t], a, b, h => by
    have ha : t = a := by simpa using h.first
    have hb : t = b := by simpa using h.last
    subst ha; subst hb
    simp [flashes]
  | t :: t' :: ts, a, b, h => by
    have ha : t = a := by simpa using h.first
    subst ha
    obtain ⟨hle, ho⟩ := List.isChain_cons_cons.1 h.order
    have ih := flashes_le hq (l := t' :: ts) (a := t') (b := b)
      ⟨rfl, by simpa using h.last, ho⟩
    have k := hq t t' hle
    rw [flashes_cons₂]
    by_cases hc : lit t = false ∧ lit t' = true
    · have := k.2 hc.1 hc.2
      rw [if_pos hc]
      push_cast
      omega
    · have := k.1
      rw [if_neg hc]
      push_cast
      omega

theorem flashes_eq {lit : Nat → Bool} {q : Nat → Int} {g : Nat}
    (hq : ∀ t t', t ≤ t' → t' ≤ t + g →
      q t' = q t + (if lit t = false ∧ lit t' = true then 1 else 0)) :
    ∀ {l : List Nat} {a b : Nat}, FramesFrom a b l → NoGapAbove g l → (flashes lit l : Int) = q b - q a
  | [], _, _, h, _ => nomatch h.first
  | [t], a, b, h, _ => by
    have ha : t = a := by simpa using h.first
    have hb : t = b := by simpa using h.last
    subst ha; subst hb
    simp [flashes]
  | t :: t' :: ts, a, b, h, hg => by
    have ha : t = a := by simpa using h.first
    subst ha
    obtain ⟨hle, ho⟩ := List.isChain_cons_cons.1 h.order
    obtain ⟨hgap, hg'⟩ := List.isChain_cons_cons.1 hg
    have ih := flashes_eq hq (l := t' :: ts) (a := t') (b := b)
      ⟨rfl, by simpa using h.last, ho⟩ hg'
    have k := hq t t' hle hgap
    rw [flashes_cons₂]
    by_cases hc : lit t = false ∧ lit t' = true
    · rw [if_pos hc] at k ⊢
      push_cast
      omega
    · rw [if_neg hc] at k ⊢
      push_cast
      omega

/-- An LED that is lit when one of two lights is flashes at most as often as both of them together. -/
theorem flashes_or (l₁ l₂ : Nat → Bool) :
    ∀ l : List Nat, flashes (fun t => l₁ t || l₂ t) l ≤ flashes l₁ l + flashes l₂ l
  | [] => by simp [flashes]
  | [t] => by simp [flashes]
  | t :: t' :: ts => by
    have ih := flashes_or l₁ l₂ (t' :: ts)
    rw [flashes_cons₂, flashes_cons₂, flashes_cons₂]
    cases l₁ t <;> cases l₂ t <;> cases l₁ t' <;> cases l₂ t' <;> simp <;> omega

theorem mem_bounds {l : List Nat} {a b : Nat} (h : FramesFrom a b l) : ∀ t ∈ l, t ≤ b := by
  intro t ht
  have hp : l.Pairwise (· ≤ ·) := List.isChain_iff_pairwise.1 h.order
  obtain ⟨m, rfl⟩ : ∃ m, l = m ++ [b] := by
    have := h.last
    rw [List.getLast?_eq_some_iff] at this
    exact this
  rcases List.mem_append.1 ht with h' | h'
  · exact (List.pairwise_append.1 hp).2.2 t h' b (by simp)
  · simp at h'; omega

theorem flashes_congr {lit lit' : Nat → Bool} :
    ∀ {l : List Nat}, (∀ t ∈ l, lit t = lit' t) → flashes lit l = flashes lit' l
  | [], _ => rfl
  | [_], _ => rfl
  | t :: t' :: ts, h => by
    rw [flashes_cons₂, flashes_cons₂, h t (by simp), h t' (by simp),
      flashes_congr (l := t' :: ts) fun x hx => h x (by simp at hx ⊢; tauto)]

/-- A light that is on during a part of each round of a clock that does not go back flashes at most once a
round. -/
theorem flashes_round {u : Nat → Int} (hu : ∀ t t', t ≤ t' → u t ≤ u t') {P : Int} (hP : 0 < P) (D : Int)
    {l : List Nat} {a b : Nat} (h : FramesFrom a b l) :
    (flashes (fun t => decide (u t % P < D)) l : Int) ≤ u b / P - u a / P := by
  refine flashes_le (q := fun t => u t / P) ?_ h
  intro t t' hle
  have hm := Int.ediv_le_ediv hP (hu t t' hle)
  refine ⟨hm, fun h1 h2 => ?_⟩
  simp only [decide_eq_false_iff_not, decide_eq_true_eq] at h1 h2
  rcases Int.lt_or_eq_of_le hm with h' | h'
  · exact h'
  · exfalso
    have e1 := Int.emod_add_mul_ediv (u t) P
    have e2 := Int.emod_add_mul_ediv (u t') P
    rw [← h'] at e2
    have := hu t t' hle
    omega

theorem rounds_le {x y P : Int} (hP : 0 < P) : y / P - x / P ≤ (y - x) / P + 1 := by
  have h : y / P < x / P + (y - x) / P + 2 := by
    rw [Int.ediv_lt_iff_lt_mul hP]
    have h1 := Int.emod_add_mul_ediv x P
    have h2 := Int.emod_add_mul_ediv (y - x) P
    have h3 := Int.emod_lt_of_pos x hP
    have h4 := Int.emod_lt_of_pos (y - x) hP
    have h5 : (x / P + (y - x) / P + 2) * P = P * (x / P) + P * ((y - x) / P) + 2 * P := by
      rw [Int.add_mul, Int.add_mul, Int.mul_comm (x / P), Int.mul_comm ((y - x) / P)]
    omega
  omega

/-- An LED that is never dark does not flash. -/
theorem flashes_lit {lit : Nat → Bool} : ∀ {l : List Nat}, (∀ t ∈ l, lit t = true) → flashes lit l = 0
  | [], _ => rfl
  | [_], _ => rfl
  | t :: t' :: ts, h => by
    rw [flashes_cons₂, h t (by simp), flashes_lit (l := t' :: ts) fun x hx => h x (by simp at hx ⊢; tauto)]
    simp

/-- Where a function that rises up to `m` and falls from `m` to `n` is at least `c` is an interval. -/
theorem hill {f : Nat → Nat} {m n : Nat} (hmn : m ≤ n) (up : ∀ k, k + 1 < m → f k ≤ f (k + 1))
    (down : ∀ k, m ≤ k → k + 1 < n → f (k + 1) ≤ f k) (c : Nat) :
    ∃ x y, x ≤ y ∧ y ≤ n ∧ ∀ k < n, c ≤ f k ↔ (x ≤ k ∧ k < y) := by
  have up' : ∀ d k, k + d < m → f k ≤ f (k + d) := by
    intro d
    induction d with
    | zero => intro k _; exact Nat.le_refl _
    | succ d ih => intro k h; exact Nat.le_trans (ih k (by omega)) (up (k + d) (by omega))
  have down' : ∀ d k, m ≤ k → k + d < n → f (k + d) ≤ f k := by
    intro d
    induction d with
    | zero => intro k _ _; exact Nat.le_refl _
    | succ d ih => intro k h h'; exact Nat.le_trans (down (k + d) (by omega) (by omega)) (ih k h (by omega))
  have first : ∃ x, x ≤ m ∧ ∀ k < m, c ≤ f k ↔ x ≤ k := by
    by_cases hx : ∃ k, k < m ∧ c ≤ f k
    · classical
      refine ⟨Nat.find hx, Nat.le_of_lt (Nat.find_spec hx).1, fun k hk => ⟨fun h => Nat.find_min' hx ⟨hk, h⟩,
        fun h => ?_⟩⟩
      have := up' (k - Nat.find hx) (Nat.find hx) (by omega)
      rw [Nat.add_sub_cancel' h] at this
      exact Nat.le_trans (Nat.find_spec hx).2 this
    · exact ⟨m, Nat.le_refl _, fun k hk => ⟨fun h => absurd ⟨k, hk, h⟩ hx, fun h => by omega⟩⟩
  have last : ∃ y, m ≤ y ∧ y ≤ n ∧ ∀ k, m ≤ k → k < n → (c ≤ f k ↔ k < y) := by
    by_cases hy : ∃ k, m ≤ k ∧ k < n ∧ f k < c
    · classical
      refine ⟨Nat.find hy, (Nat.find_spec hy).1, Nat.le_of_lt (Nat.find_spec hy).2.1, fun k hk hkn =>
        ⟨fun h => ?_, fun h => ?_⟩⟩
      · by_contra hlt
        have := down' (k - Nat.find hy) (Nat.find hy) (Nat.find_spec hy).1 (by omega)
        rw [Nat.add_sub_cancel' (by omega)] at this
        have := (Nat.find_spec hy).2.2
        omega
      · by_contra hc
        exact Nat.find_min hy h ⟨hk, hkn, by omega⟩
    · refine ⟨n, hmn, Nat.le_refl _, fun k hk hkn => ⟨fun _ => hkn, fun _ => ?_⟩⟩
      by_contra hc
      exact hy ⟨k, hk, hkn, by omega⟩
  obtain ⟨x, hxm, hx⟩ := first
  obtain ⟨y, hmy, hyn, hy⟩ := last
  refine ⟨x, y, by omega, hyn, fun k hk => ?_⟩
  by_cases hkm : k < m
  · rw [hx k hkm]; omega
  · rw [hy k (by omega) hk]; omega

end Firefly
