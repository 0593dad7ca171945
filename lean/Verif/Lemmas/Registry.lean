import Verif.Model.LedManager
import Verif.Spec.Registry

/-! # Lemmas about the effect registry -/

namespace Firefly
open Firefly Spec

variable {α : Type}

/-- Indices of the first slot of each effect taking part in the random choice. -/
def firstSlots : List (α × U8) → Nat → List Nat
  | [], _ => []
  | x :: l, n => if 0 < x.2.toNat then n :: firstSlots l (n + x.2.toNat)
    else firstSlots l n

/-- What a registry looks like after registering `l`. -/
structure Registered (l : List (α × U8)) (r : Registry α) : Prop where
  effects : r.effects = randomSlots l
  nonRandom : r.nonRandom = (manualOnes l).map (·.1)
  unique : r.uniqueIndices = (firstSlots l 0).map (BitVec.ofNat 8)

theorem firstSlots_append (l : List (α × U8)) (x : α × U8) (n : Nat) :
    firstSlots (l ++ [x]) n =
      firstSlots l n ++ (if 0 < x.2.toNat then [n + (randomSlots l).length] else []) := by
  induction l generalizing n with
  | nil => simp [firstSlots, randomSlots]
  | cons y l ih =>
    simp only [List.cons_append, firstSlots]
    have : (randomSlots (y :: l)).length = y.2.toNat + (randomSlots l).length := by
      simp [randomSlots]
    split <;> rw [ih, this]
    · simp [Nat.add_assoc]
    · rename_i h
      have : y.2.toNat = 0 := by omega
      simp [this]

theorem Registered.add_eq {l : List (α × U8)} {r : Registry α} (h : Registered l r)
    (plat : Platform) (x : α × U8) :
    ∃ r', Registered (l ++ [x]) r' ∧ r.addEffect plat x.1 x.2 =
      (hostAssert plat (decide ((allSlots (l ++ [x])).length < 256))).bind (fun _ => .ok r') := by
  obtain ⟨e, p⟩ := x
  have hr : randomSlots (l ++ [(e, p)]) = randomSlots l ++ List.replicate p.toNat e := by
    simp [randomSlots]
  have hm : manualOnes (l ++ [(e, p)]) =
      manualOnes l ++ (if p.toNat = 0 then [(e, p)] else []) := by
    simp only [manualOnes, List.filter_append, List.filter_cons, List.filter_nil,
      decide_eq_true_eq]
  have hp : (0 < p) ↔ 0 < p.toNat := by simp [BitVec.lt_def]
  obtain ⟨r', hr'⟩ : ∃ r' : Registry α, r' =
      { (if 0 < p then
          { r with uniqueIndices := r.uniqueIndices ++ [BitVec.ofNat 8 r.effects.length] }
        else { r with nonRandom := r.nonRandom ++ [e] }) with
        effects := (if 0 < p then
          { r with uniqueIndices := r.uniqueIndices ++ [BitVec.ofNat 8 r.effects.length] }
        else { r with nonRandom := r.nonRandom ++ [e] }).effects ++
          List.replicate p.toNat e } := ⟨_, rfl⟩
  have hreg : Registered (l ++ [(e, p)]) r' := by
    by_cases h0 : 0 < p
    · simp only [if_pos h0] at hr'
      have hn : ¬ p.toNat = 0 := by have := hp.1 h0; omega
      subst hr'
      refine ⟨?_, ?_, ?_⟩
      · simp [hr, h.effects]
      · simp [hm, hn, h.nonRandom]
      · rw [firstSlots_append, if_pos (hp.1 h0)]
        simp [h.unique, h.effects]
    · simp only [if_neg h0] at hr'
      have hn : p.toNat = 0 := by have := mt hp.2 h0; omega
      subst hr'
      refine ⟨?_, ?_, ?_⟩
      · simp [hr, h.effects]
      · simp [hm, hn, h.nonRandom]
      · rw [firstSlots_append, if_neg (by simp [hn])]
        simp [h.unique]
  refine ⟨r', hreg, ?_⟩
  have hl : r'.effects.length + r'.nonRandom.length = (allSlots (l ++ [(e, p)])).length := by
    rw [hreg.effects, hreg.nonRandom]
    simp only [allSlots, List.length_append, List.length_map]
  rw [← hl, hr']
  rfl

theorem Registered.add {l : List (α × U8)} {r : Registry α} (h : Registered l r)
    (plat : Platform) (x : α × U8) (hs : (allSlots (l ++ [x])).length ≤ 255) :
    ∃ r', r.addEffect plat x.1 x.2 = .ok r' ∧ Registered (l ++ [x]) r' := by
  obtain ⟨r', h', e⟩ := h.add_eq plat x
  refine ⟨r', ?_, h'⟩
  have hs' : (allSlots (l ++ [x])).length < 256 := by omega
  rw [e]
  cases plat <;> simp [hostAssert, hs', Except.bind]

theorem Registered.add_too_many {l : List (α × U8)} {r : Registry α} (h : Registered l r)
    (x : α × U8) (hs : 256 ≤ (allSlots (l ++ [x])).length) :
    r.addEffect .host x.1 x.2 = .error .assertFail := by
  obtain ⟨r', h', e⟩ := h.add_eq .host x
  have hs' : ¬ (allSlots (l ++ [x])).length < 256 := by omega
  rw [e]
  simp [hostAssert, hs', Except.bind]

theorem allSlots_prefix (l l' : List (α × U8)) :
    (allSlots l).length ≤ (allSlots (l ++ l')).length := by
  simp [allSlots, randomSlots, manualOnes]
  omega

theorem registered_addAll (plat : Platform) (l' : List (α × U8)) :
    ∀ (l : List (α × U8)) (r : Registry α), Registered l r →
      (allSlots (l ++ l')).length ≤ 255 →
      ∃ r', r.addAll plat l' = .ok r' ∧ Registered (l ++ l') r' := by
  induction l' with
  | nil => intro l r h _; exact ⟨r, rfl, by simpa using h⟩
  | cons x l' ih =>
    intro l r h hs
    have e : l ++ x :: l' = (l ++ [x]) ++ l' := by simp
    rw [e] at hs ⊢
    obtain ⟨r₁, e₁, h₁⟩ := h.add plat x (Nat.le_trans (allSlots_prefix _ _) hs)
    obtain ⟨r₂, e₂, h₂⟩ := ih _ _ h₁ hs
    refine ⟨r₂, ?_, h₂⟩
    simp only [Registry.addAll, List.foldlM_cons, e₁, bind, Except.bind]
    exact e₂

/-- Registration never fails and yields the expected registry. -/
theorem registered_of_small (plat : Platform) (l : List (α × U8))
    (hs : (allSlots l).length ≤ 255) :
    ∃ r, Registry.empty.addAll plat l = .ok r ∧ Registered l r := by
  have := registered_addAll plat l [] Registry.empty ⟨rfl, rfl, rfl⟩ (by simpa using hs)
  simpa using this

theorem getEffect_slots {l : List (α × U8)} {r : Registry α} (h : Registered l r) (i : Nat)
    (hi : i < (allSlots l).length) :
    (if i < r.effects.length then vecGet r.effects i
      else vecGet r.nonRandom (i - r.effects.length)) = .ok (allSlots l)[i] := by
  rw [h.effects, h.nonRandom]
  simp only [allSlots, List.length_append] at hi
  simp only [vecGet, allSlots]
  split
  · rename_i hlt
    rw [List.getElem?_eq_getElem hlt, List.getElem_append_left hlt]
  · rename_i hge
    rw [List.getElem?_eq_getElem (by omega), List.getElem_append_right (by omega)]

theorem firstSlots_spec (l : List (α × U8)) : ∀ n, (firstSlots l n).length = (randomOnes l).length ∧
    ∀ k (h : k < (firstSlots l n).length) (h' : k < (randomOnes l).length),
      ∃ h2 : (firstSlots l n)[k] - n < (randomSlots l).length, n ≤ (firstSlots l n)[k] ∧
        (randomSlots l)[(firstSlots l n)[k] - n] = (randomOnes l)[k].1 := by
  induction l with
  | nil => intro n; exact ⟨rfl, fun k h => absurd h (Nat.not_lt_zero _)⟩
  | cons x l ih =>
    intro n
    have hrs : randomSlots (x :: l) = List.replicate x.2.toNat x.1 ++ randomSlots l := by
      simp [randomSlots]
    by_cases h0 : 0 < x.2.toNat
    · obtain ⟨i1, i2⟩ := ih (n + x.2.toNat)
      have ef : firstSlots (x :: l) n = n :: firstSlots l (n + x.2.toNat) := by
        simp [firstSlots, h0]
      have er : randomOnes (x :: l) = x :: randomOnes l := by
        simp [randomOnes, h0]
      refine ⟨by rw [ef, er]; simp [i1], ?_⟩
      intro k h h'
      simp only [ef, er, hrs]
      cases k with
      | zero =>
        refine ⟨by simp; omega, by simp, ?_⟩
        simp [h0]
      | succ k =>
        have h : k < (firstSlots l (n + x.2.toNat)).length := by rw [ef] at h; simpa using h
        have h' : k < (randomOnes l).length := by rw [er] at h'; simpa using h'
        obtain ⟨a, b, c⟩ := i2 k h h'
        simp only [List.getElem_cons_succ]
        refine ⟨by simp; omega, by omega, ?_⟩
        rw [List.getElem_append_right (by simp; omega)]
        rw [← c]
        congr 1
        simp
        omega
    · obtain ⟨i1, i2⟩ := ih n
      have hz : x.2.toNat = 0 := by omega
      have ef : firstSlots (x :: l) n = firstSlots l n := by simp [firstSlots, hz]
      have er : randomOnes (x :: l) = randomOnes l := by
        simp [randomOnes, hz]
      simp only [ef, er, hrs, hz, List.replicate_zero, List.nil_append]
      exact ⟨i1, i2⟩

theorem randomOnes_le (l : List (α × U8)) : (randomOnes l).length ≤ (randomSlots l).length := by
  induction l with
  | nil => simp [randomOnes, randomSlots]
  | cons x l ih =>
    have hrs : randomSlots (x :: l) = List.replicate x.2.toNat x.1 ++ randomSlots l := by
      simp [randomSlots]
    rw [hrs, randomOnes, List.filter_cons]
    rw [randomOnes] at ih
    split
    · rename_i h0
      simp only [decide_eq_true_eq] at h0
      simp only [List.length_cons, List.length_append, List.length_replicate]
      omega
    · simp only [List.length_append]; omega

theorem count_randomSlots [BEq α] [LawfulBEq α] (l : List (α × U8)) (e : α) :
    (randomSlots l).count e = ((l.filter (fun x => x.1 == e)).map (·.2.toNat)).sum := by
  rw [randomSlots]
  induction l with
  | nil => rfl
  | cons x l ih =>
    rw [List.flatMap_cons, List.count_append, ih, List.count_replicate, List.filter_cons]
    split <;> simp

theorem Registered.length {l : List (α × U8)} {r : Registry α} (h : Registered l r) :
    r.effects.length + r.nonRandom.length = (allSlots l).length := by
  rw [h.effects, h.nonRandom]; simp [allSlots]

/-- Below the number of slots, both builds look up the slot. -/
theorem Registered.getEffect {l : List (α × U8)} {r : Registry α} (h : Registered l r)
    (hs : (allSlots l).length ≤ 255) (plat : Platform) (i : U8)
    (hi : i.toNat < (allSlots l).length) :
    r.getEffect plat i = .ok (allSlots l)[i.toNat] := by
  have ht : (BitVec.ofNat 8 (r.effects.length + r.nonRandom.length) : U8).toNat =
      (allSlots l).length := by rw [h.length, BitVec.toNat_ofNat]; omega
  have hne : (BitVec.ofNat 8 (r.effects.length + r.nonRandom.length) : U8) ≠ 0 := by
    intro h0
    rw [h0] at ht
    have : (0 : U8).toNat = 0 := rfl
    omega
  cases plat with
  | arduino =>
    simp only [Registry.getEffect, bind, Except.bind, pure, Except.pure, if_neg hne]
    rw [BitVec.toNat_umod, ht, Nat.mod_eq_of_lt hi]
    exact getEffect_slots h _ _
  | host =>
    simp only [Registry.getEffect, bind, Except.bind, pure, Except.pure, BitVec.lt_def, ht, hi,
      decide_true]
    exact getEffect_slots h _ _

end Firefly
