import Verif.Lemmas.Variety
import Verif.Props.Draws

/-! # The rotation shows all effects (C176) -/

namespace Firefly.Props
open Spec Demo

section
variable {K : Nat}

open Classical in
/-- **C176.** A device that knows `E` effects and `P` palettes, in any state that it can have reached. Whatever it
does and hears, and however this is chosen (knowing all that was drawn before): if a set `Q` leaves out `B` of the
`E * P` pairs of an effect and a palette, then of all outcomes of `T` steps, at most `(B / (E * P)) ^ N` are such
that the device changed the effect `N` times of its own accord and never went on with a pair in `Q`. -/
theorem rotation_reaches {t₀ : U32} {h : List Entry} {s₀ : Node} (run : Run .arduino t₀ h s₀)
    (he : s₀.numEffects ≠ 0) (hp : s₀.numPalettes ≠ 0)
    (hKe : s₀.numEffects.toNat ∣ K) (hKp : s₀.numPalettes.toNat ∣ K)
    (plan : List (Luck K) → Slot) (fixed : FixedCounts plan) (tail : Rand) (Q : Nat → Nat → Prop) (T N : Nat) :
    (Finset.univ.filter fun w : Fin T → Luck K =>
        N ≤ rotations plan tail s₀ (List.ofFn w) ∧ ¬ CameUp plan tail s₀ Q (List.ofFn w)).card *
          (s₀.numEffects.toNat * s₀.numPalettes.toNat) ^ N ≤
      ((Finset.range s₀.numEffects.toNat ×ˢ Finset.range s₀.numPalettes.toNat).filter
        fun x => ¬ Q x.1 x.2).card ^ N * Fintype.card (Fin T → Luck K) :=
  avoiding_odds run.wf fixed he hp hKe hKp Q T N

open Classical in
theorem some_of_count {W : Type} [Fintype W] {m A B : Nat} {X : Nat → W → Prop}
    [∀ e, DecidablePred (X e)] [DecidablePred fun w => ∃ e < m, X e w]
    (h : ∀ e < m, (Finset.univ.filter fun w => X e w).card * A ≤ B * Fintype.card W) :
    (Finset.univ.filter fun w => ∃ e < m, X e w).card * A ≤ m * B * Fintype.card W := by
  have h1 : (Finset.univ.filter fun w => ∃ e < m, X e w) ⊆
      (Finset.range m).biUnion fun e => Finset.univ.filter fun w => X e w := by
    intro w hw
    obtain ⟨e, he, hX⟩ := (Finset.mem_filter.1 hw).2
    exact Finset.mem_biUnion.2 ⟨e, Finset.mem_range.2 he, Finset.mem_filter.2 ⟨Finset.mem_univ _, hX⟩⟩
  calc _ ≤ (∑ e ∈ Finset.range m, (Finset.univ.filter fun w => X e w).card) * A :=
        Nat.mul_le_mul_right _ ((Finset.card_le_card h1).trans Finset.card_biUnion_le)
    _ = ∑ e ∈ Finset.range m, (Finset.univ.filter fun w => X e w).card * A := Finset.sum_mul _ _ _
    _ ≤ ∑ _e ∈ Finset.range m, B * Fintype.card W :=
        Finset.sum_le_sum fun e he => h e (Finset.mem_range.1 he)
    _ = _ := by rw [Finset.sum_const, Finset.card_range, nsmul_eq_mul, Nat.cast_id, Nat.mul_assoc]

theorem card_others {m e : Nat} (he : e < m) : ((Finset.range m).filter fun x => ¬ x = e).card = m - 1 := by
  have : (Finset.range m).filter (fun x => ¬ x = e) = (Finset.range m).erase e := by
    ext x
    simp [and_comm]
  rw [this, Finset.card_erase_of_mem (Finset.mem_range.2 he), Finset.card_range]

theorem cancel_pow {x a b c d N : Nat} (hb : 0 < b) (h : x * (a * b) ^ N ≤ (c * b) ^ N * d) :
    x * a ^ N ≤ c ^ N * d := by
  refine Nat.le_of_mul_le_mul_right ?_ (Nat.pow_pos (n := N) hb)
  calc x * a ^ N * b ^ N = x * (a * b) ^ N := by rw [Nat.mul_pow]; ring
    _ ≤ _ := h
    _ = _ := by rw [Nat.mul_pow]; ring

open Classical in
/-- **C176.** So all effects come up: of all outcomes, at most `E * (1 - 1 / E) ^ N` are such that the device
changed the effect `N` times of its own accord and one of its `E` effects never came up. -/
theorem all_effects_come_up {t₀ : U32} {h : List Entry} {s₀ : Node} (run : Run .arduino t₀ h s₀)
    (he : s₀.numEffects ≠ 0) (hp : s₀.numPalettes ≠ 0)
    (hKe : s₀.numEffects.toNat ∣ K) (hKp : s₀.numPalettes.toNat ∣ K)
    (plan : List (Luck K) → Slot) (fixed : FixedCounts plan) (tail : Rand) (T N : Nat) :
    (Finset.univ.filter fun w : Fin T → Luck K =>
        ∃ e < s₀.numEffects.toNat, N ≤ rotations plan tail s₀ (List.ofFn w) ∧
          ¬ CameUp plan tail s₀ (fun x _ => x = e) (List.ofFn w)).card * s₀.numEffects.toNat ^ N ≤
      s₀.numEffects.toNat * (s₀.numEffects.toNat - 1) ^ N * Fintype.card (Fin T → Luck K) := by
  refine some_of_count (W := Fin T → Luck K) (X := fun e w => N ≤ rotations plan tail s₀ (List.ofFn w) ∧
    ¬ CameUp plan tail s₀ (fun x _ => x = e) (List.ofFn w)) fun e hlt => ?_
  have key := rotation_reaches run he hp hKe hKp plan fixed tail (fun x _ => x = e) T N
  have hc : ((Finset.range s₀.numEffects.toNat ×ˢ Finset.range s₀.numPalettes.toNat).filter
      fun x : Nat × Nat => ¬ x.1 = e).card = (s₀.numEffects.toNat - 1) * s₀.numPalettes.toNat := by
    rw [← card_others hlt]
    have : (Finset.range s₀.numEffects.toNat ×ˢ Finset.range s₀.numPalettes.toNat).filter
        (fun x : Nat × Nat => ¬ x.1 = e) =
        ((Finset.range s₀.numEffects.toNat).filter fun x => ¬ x = e) ×ˢ Finset.range s₀.numPalettes.toNat := by
      ext x
      simp only [Finset.mem_filter, Finset.mem_product]
      tauto
    rw [this, Finset.card_product, Finset.card_range]
  refine cancel_pow (b := s₀.numPalettes.toNat) ?_ ?_
  · rcases Nat.eq_zero_or_pos s₀.numPalettes.toNat with h0 | h0
    · exact absurd (BitVec.eq_of_toNat_eq h0) hp
    · exact h0
  · rw [← hc]
    convert key

open Classical in
/-- **C176.** And all pairs of an effect and a palette come up: of all outcomes, at most
`E * P * (1 - 1 / (E * P)) ^ N` are such that the device changed the effect `N` times of its own accord and one of
the pairs never came up. -/
theorem all_pairs_come_up {t₀ : U32} {h : List Entry} {s₀ : Node} (run : Run .arduino t₀ h s₀)
    (he : s₀.numEffects ≠ 0) (hp : s₀.numPalettes ≠ 0)
    (hKe : s₀.numEffects.toNat ∣ K) (hKp : s₀.numPalettes.toNat ∣ K)
    (plan : List (Luck K) → Slot) (fixed : FixedCounts plan) (tail : Rand) (T N : Nat) :
    (Finset.univ.filter fun w : Fin T → Luck K =>
        ∃ e < s₀.numEffects.toNat, ∃ p < s₀.numPalettes.toNat, N ≤ rotations plan tail s₀ (List.ofFn w) ∧
          ¬ CameUp plan tail s₀ (fun x y => x = e ∧ y = p) (List.ofFn w)).card *
          (s₀.numEffects.toNat * s₀.numPalettes.toNat) ^ N ≤
      s₀.numEffects.toNat * (s₀.numPalettes.toNat * (s₀.numEffects.toNat * s₀.numPalettes.toNat - 1) ^ N) *
        Fintype.card (Fin T → Luck K) := by
  refine some_of_count (W := Fin T → Luck K) (X := fun e w => ∃ p < s₀.numPalettes.toNat,
    N ≤ rotations plan tail s₀ (List.ofFn w) ∧
      ¬ CameUp plan tail s₀ (fun x y => x = e ∧ y = p) (List.ofFn w)) fun e hlt => ?_
  refine some_of_count (W := Fin T → Luck K) (X := fun p w => N ≤ rotations plan tail s₀ (List.ofFn w) ∧
      ¬ CameUp plan tail s₀ (fun x y => x = e ∧ y = p) (List.ofFn w)) fun p hlt' => ?_
  have key := rotation_reaches run he hp hKe hKp plan fixed tail (fun x y => x = e ∧ y = p) T N
  have hc : ((Finset.range s₀.numEffects.toNat ×ˢ Finset.range s₀.numPalettes.toNat).filter
      fun x : Nat × Nat => ¬ (x.1 = e ∧ x.2 = p)).card = s₀.numEffects.toNat * s₀.numPalettes.toNat - 1 := by
    have : (Finset.range s₀.numEffects.toNat ×ˢ Finset.range s₀.numPalettes.toNat).filter
        (fun x : Nat × Nat => ¬ (x.1 = e ∧ x.2 = p)) =
        (Finset.range s₀.numEffects.toNat ×ˢ Finset.range s₀.numPalettes.toNat).erase (e, p) := by
      ext x
      simp only [Finset.mem_filter, Finset.mem_erase, ne_eq, Prod.ext_iff]
      tauto
    rw [this, Finset.card_erase_of_mem (Finset.mem_product.2 ⟨Finset.mem_range.2 hlt, Finset.mem_range.2 hlt'⟩),
      Finset.card_product, Finset.card_range, Finset.card_range]
  rw [← hc]
  convert key

end

/-! ### Concrete cases -/

/-- The master of `rotating` runs every 61 seconds. -/
def varietyPlan (l : List (Luck 20)) : Slot := .other (.radioTick (70001 + BitVec.ofNat 32 l.length * 61000) none)

theorem variety_fixed : FixedCounts varietyPlan :=
  ⟨fun l now c h => by simp [varietyPlan] at h, fun l now c h => by simp [varietyPlan] at h⟩

/-- It changes the effect in the first step. -/
theorem variety_draws : DrawsAnew varietyPlan (fun _ => 0) rotating.2 [] := by
  refine ⟨70001, none, rfl, quiet_of_delivered rfl, fun _ => 3, ?_⟩
  have h : (match { rotating.2 with rand := fun _ => 3 }.radioTick .arduino 70001 none with
    | .ok s₁ => decide (s₁.getSetEffect.data = rotating.2.getSetEffect.data)
    | .error _ => true) = false := by decide +kernel
  split at h
  · rename_i s₁ hs
    exact ⟨s₁, hs, fun k => of_decide_eq_false h k.2.2⟩
  · cases h

/-- With these draws effect 7 comes up, with palette 1. -/
theorem variety_demo :
    CameUp varietyPlan (fun _ => 0) rotating.2 (fun x y => x = 7 ∧ y = 1) [(0, 7, 1, 0)] :=
  ⟨(0, 7, 1, 0), [], List.suffix_refl _, variety_draws, by decide +kernel, by decide +kernel⟩

open Classical in
/-- The theorem applies to this master, which knows ten effects. -/
theorem variety_ten (T N : Nat) :
    (Finset.univ.filter fun w : Fin T → Luck 20 =>
        ∃ e < 10, N ≤ rotations varietyPlan (fun _ => 0) rotating.2 (List.ofFn w) ∧
          ¬ CameUp varietyPlan (fun _ => 0) rotating.2 (fun x _ => x = e) (List.ofFn w)).card * 10 ^ N ≤
      10 * 9 ^ N * Fintype.card (Fin T → Luck 20) := by
  have h := all_effects_come_up rotation_fair_demo.1 rotation_fair_demo.2.2.2.2.1 rotation_fair_demo.2.2.2.2.2.1
    rotation_fair_demo.2.2.1 rotation_fair_demo.2.2.2.1 varietyPlan variety_fixed (fun _ => 0) T N
  have e : rotating.2.numEffects.toNat = 10 := by decide +kernel
  rw [e] at h
  convert h using 3
  congr!

end Firefly.Props
