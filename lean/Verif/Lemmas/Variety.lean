import Verif.Lemmas.Timeouts
import Verif.Lemmas.Crowd
import Verif.Lemmas.Board
import Verif.Spec.Variety

/-! # The variety of the rotation: lemmas (C176) -/

namespace Firefly
open Spec

variable {K : Nat}

/-- A quantity that does not grow on average. -/
theorem step_sum {Ω : Type} [Fintype Ω] {P : List Ω → Nat}
    (h : ∀ l, ∑ ω : Ω, P (ω :: l) ≤ Fintype.card Ω * P l) :
    ∀ T, ∑ w : Fin T → Ω, P (List.ofFn w) ≤ P [] * Fintype.card Ω ^ T
  | 0 => by
    have : ∀ w : Fin 0 → Ω, P (List.ofFn w) ≤ P [] := fun w => by rw [List.ofFn_zero]
    refine (Finset.sum_le_sum fun w _ => this w).trans ?_
    rw [Finset.sum_const, Finset.card_univ, nsmul_eq_mul, Nat.cast_id, Nat.mul_comm]
    simp
  | T + 1 => by
    rw [← (Fin.consEquiv fun _ => Ω).sum_comp, Fintype.sum_prod_type, Finset.sum_comm]
    simp only [Fin.consEquiv, Equiv.coe_fn_mk, List.ofFn_cons]
    calc _ ≤ ∑ w : Fin T → Ω, Fintype.card Ω * P (List.ofFn w) := Finset.sum_le_sum fun w _ => h _
      _ = Fintype.card Ω * ∑ w : Fin T → Ω, P (List.ofFn w) := by rw [Finset.mul_sum]
      _ ≤ Fintype.card Ω * (P [] * Fintype.card Ω ^ T) := Nat.mul_le_mul_left _ (step_sum h T)
      _ = _ := by ring

theorem lived_counts {tail : Rand} {ω : Luck K} {slot : Slot} {s : Node} (wf : s.WF)
    (h1 : ∀ now c, slot ≠ .other (.setNumEffects now c)) (h2 : ∀ now c, slot ≠ .other (.setNumPalettes now c)) :
    (lived tail ω slot s).numPalettes = s.numPalettes ∧ (lived tail ω slot s).numEffects = s.numEffects := by
  have wf' : ({ s with rand := supply tail ω } : Node).WF := ⟨wf.idx, wf.next, wf.timerNone⟩
  simp only [lived]
  split
  · exact ⟨rfl, rfl⟩
  · rename_i s' hs
    cases slot with
    | hear now p =>
      have := Node.step_counts (s := { s with rand := supply tail ω }) wf' hs
      exact ⟨this.1, this.2⟩
    | other op =>
      cases op with
      | radioTick now rx =>
        have := Node.step_counts (s := { s with rand := supply tail ω }) wf' hs
        exact ⟨this.1, this.2⟩
      | setEffect now p =>
        simp only [Slot.anyOp, Op.step] at hs
        rw [Node.setEffect_eq wf'.idx] at hs
        split at hs
        · cases hs
        · cases hs; exact ⟨rfl, rfl⟩
      | setNumPalettes now n => exact absurd rfl (h2 now n)
      | setNumEffects now n => exact absurd rfl (h1 now n)
      | endTick now => cases hs; exact ⟨rfl, rfl⟩

theorem missed_counts {plan : List (Luck K) → Slot} {tail : Rand} {s₀ : Node} (wf : s₀.WF) (f : FixedCounts plan) :
    ∀ l, (missed plan tail s₀ l).2.numPalettes = s₀.numPalettes ∧
      (missed plan tail s₀ l).2.numEffects = s₀.numEffects
  | [] => ⟨rfl, rfl⟩
  | ω :: l => by
    have ih := missed_counts (tail := tail) wf f l
    rw [missed_lived]
    have := lived_counts (tail := tail) (ω := ω) (missed_wf (plan := plan) (tail := tail) wf l) (f.effects l)
      (f.palettes l)
    exact ⟨this.1.trans ih.1, this.2.trans ih.2⟩

open Classical in
/-- When the device changes the effect the pair it goes on with is uniform. -/
theorem rotates_count {plan : List (Luck K) → Slot} {tail : Rand} {s₀ : Node} (wf : s₀.WF) (f : FixedCounts plan)
    (he : s₀.numEffects ≠ 0) (hp : s₀.numPalettes ≠ 0)
    (hKe : s₀.numEffects.toNat ∣ K) (hKp : s₀.numPalettes.toNat ∣ K) {l : List (Luck K)}
    (h : DrawsAnew plan tail s₀ l) (Q : Nat → Nat → Prop) :
    (Finset.univ.filter fun ω : Luck K => Q (missed plan tail s₀ (ω :: l)).2.getEffectIndex.toNat
        (missed plan tail s₀ (ω :: l)).2.getSetEffect.data[2].toNat).card *
        (s₀.numEffects.toNat * s₀.numPalettes.toNat) =
      ((Finset.range s₀.numEffects.toNat ×ˢ Finset.range s₀.numPalettes.toNat).filter
        fun x => Q x.1 x.2).card * Fintype.card (Luck K) := by
  obtain ⟨now, rx, hpl, quiet, r₀, s₁, h₁, new⟩ := h
  have hc := missed_counts (plan := plan) (tail := tail) wf f l
  have wfl := missed_wf (plan := plan) (tail := tail) wf l
  have hm : ∀ ω : Luck K, (missed plan tail s₀ (ω :: l)).2 =
      lived tail ω (.other (.radioTick now rx)) (missed plan tail s₀ l).2 := fun ω => by rw [missed_lived, hpl]
  generalize (missed plan tail s₀ l).2 = s at *
  have wf' (r : Rand) : ({ s with rand := r } : Node).WF := ⟨wfl.idx, wfl.next, wfl.timerNone⟩
  have hd : s.delivered rx = none := quiet.delivered wfl
  have hch : changes now rx s := by
    have hd' : ({ s with rand := r₀ } : Node).delivered rx = none := hd
    exact changes_of (s := { s with rand := r₀ }) (wf' r₀) h₁ hd' new
  have e : (Finset.univ.filter fun ω : Luck K => Q (missed plan tail s₀ (ω :: l)).2.getEffectIndex.toNat
        (missed plan tail s₀ (ω :: l)).2.getSetEffect.data[2].toNat) =
      Finset.univ.filter fun ω : Luck K =>
        Q (ω.2.1.val % s₀.numEffects.toNat) (ω.2.2.1.val % s₀.numPalettes.toNat) := by
    refine Finset.filter_congr fun ω _ => ?_
    have hcω : changes now rx ({ s with rand := supply tail ω } : Node) := hch
    obtain ⟨s', k1, k2, k3⟩ := change_result (wf' (supply tail ω)) hcω
      (show s.numEffects ≠ 0 by rw [hc.2]; exact he) (show s.numPalettes ≠ 0 by rw [hc.1]; exact hp)
    have k2' : s'.getEffectIndex.toNat = ω.2.1.val % s.numEffects.toNat := k2
    have k3' : s'.getSetEffect.data[2].toNat = ω.2.2.1.val % s.numPalettes.toNat := k3
    have hl : lived tail ω (.other (.radioTick now rx)) s = s' := by
      simp only [lived, Slot.anyOp, Op.step]
      rw [k1]
    rw [hm, hl, k2', k3', hc.1, hc.2]
  rw [e]
  exact luck_two hKe hKp Q

open Classical in
/-- The weight of an outcome in which no pair that is `Q` came up. -/
noncomputable def avoiding (N A B : Nat) (Q : Nat → Nat → Prop) (plan : List (Luck K) → Slot) (tail : Rand)
    (s₀ : Node) (l : List (Luck K)) : Nat :=
  if CameUp plan tail s₀ Q l then 0
  else A ^ min (rotations plan tail s₀ l) N * B ^ (N - rotations plan tail s₀ l)

theorem cameUp_cons {plan : List (Luck K) → Slot} {tail : Rand} {s₀ : Node} {Q : Nat → Nat → Prop}
    {l : List (Luck K)} (ω : Luck K) (h : CameUp plan tail s₀ Q l) : CameUp plan tail s₀ Q (ω :: l) := by
  obtain ⟨ω', l', hl, h⟩ := h
  exact ⟨ω', l', hl.trans (List.suffix_cons ω l), h⟩

open Classical in
theorem avoiding_sum_cons {plan : List (Luck K) → Slot} {tail : Rand} {s₀ : Node} (wf : s₀.WF)
    (f : FixedCounts plan) (he : s₀.numEffects ≠ 0) (hp : s₀.numPalettes ≠ 0)
    (hKe : s₀.numEffects.toNat ∣ K) (hKp : s₀.numPalettes.toNat ∣ K) (Q : Nat → Nat → Prop) (N : Nat)
    {A B : Nat} (hA : s₀.numEffects.toNat * s₀.numPalettes.toNat = A)
    (hB : ((Finset.range s₀.numEffects.toNat ×ˢ Finset.range s₀.numPalettes.toNat).filter
      fun x => ¬ Q x.1 x.2).card = B) (l : List (Luck K)) :
    ∑ ω : Luck K, avoiding N A B Q plan tail s₀ (ω :: l) ≤
      Fintype.card (Luck K) * avoiding N A B Q plan tail s₀ l := by
  by_cases ha : CameUp plan tail s₀ Q l
  · have : ∀ ω : Luck K, avoiding N A B Q plan tail s₀ (ω :: l) = 0 := fun ω => by
      rw [avoiding, if_pos (cameUp_cons ω ha)]
    simp [this]
  have same : (∀ ω : Luck K,
      A ^ min (rotations plan tail s₀ (ω :: l)) N * B ^ (N - rotations plan tail s₀ (ω :: l)) =
      A ^ min (rotations plan tail s₀ l) N * B ^ (N - rotations plan tail s₀ l)) →
      ∑ ω : Luck K, avoiding N A B Q plan tail s₀ (ω :: l) ≤
        Fintype.card (Luck K) * avoiding N A B Q plan tail s₀ l := by
    intro e
    have : ∀ ω ∈ (Finset.univ : Finset (Luck K)),
        avoiding N A B Q plan tail s₀ (ω :: l) ≤ avoiding N A B Q plan tail s₀ l := by
      intro ω _
      rw [avoiding, avoiding, if_neg ha, e ω]
      split
      · exact Nat.zero_le _
      · exact Nat.le_refl _
    refine Nat.le_trans (Finset.sum_le_sum this) ?_
    rw [Finset.sum_const, Finset.card_univ, nsmul_eq_mul, Nat.cast_id]
  by_cases hr : DrawsAnew plan tail s₀ l
  · by_cases hN : rotations plan tail s₀ l < N
    · have hbc : ∀ ω : Luck K, rotations plan tail s₀ (ω :: l) = rotations plan tail s₀ l + 1 := fun ω => by
        rw [rotations, if_pos hr]
      have : ∀ ω ∈ (Finset.univ : Finset (Luck K)), avoiding N A B Q plan tail s₀ (ω :: l) ≤
          (if ¬ Q (missed plan tail s₀ (ω :: l)).2.getEffectIndex.toNat
              (missed plan tail s₀ (ω :: l)).2.getSetEffect.data[2].toNat then 1 else 0) *
            (A ^ (rotations plan tail s₀ l + 1) * B ^ (N - (rotations plan tail s₀ l + 1))) := by
        intro ω _
        rw [avoiding, hbc ω, Nat.min_eq_left (by omega)]
        split
        · exact Nat.zero_le _
        · rename_i hn
          rw [if_pos fun hq => hn ⟨ω, l, List.suffix_refl _, hr, hq⟩, Nat.one_mul]
      refine Nat.le_trans (Finset.sum_le_sum this) ?_
      rw [← Finset.sum_mul, ← Finset.card_filter, avoiding, if_neg ha, Nat.min_eq_left (by omega),
        show N - rotations plan tail s₀ l = N - (rotations plan tail s₀ l + 1) + 1 by omega, Nat.pow_succ,
        Nat.pow_succ]
      generalize A ^ rotations plan tail s₀ l = a
      generalize B ^ (N - (rotations plan tail s₀ l + 1)) = b
      have := rotates_count (tail := tail) wf f he hp hKe hKp hr fun a b => ¬ Q a b
      rw [hA] at this
      refine Nat.le_of_eq ?_
      calc _ = (Finset.univ.filter fun ω : Luck K =>
            ¬ Q (missed plan tail s₀ (ω :: l)).2.getEffectIndex.toNat
              (missed plan tail s₀ (ω :: l)).2.getSetEffect.data[2].toNat).card * A * (a * b) := by ring
        _ = B * Fintype.card (Luck K) * (a * b) := by
          congr 1
          convert this
          exact hB.symm.trans (by congr!)
        _ = _ := by ring
    · refine same fun ω => ?_
      rw [rotations, if_pos hr, Nat.min_eq_right (by omega), Nat.min_eq_right (by omega),
        Nat.sub_eq_zero_of_le (by omega), Nat.sub_eq_zero_of_le (by omega)]
  · refine same fun ω => ?_
    rw [rotations, if_neg hr]
    rfl

open Classical in
theorem avoiding_odds {plan : List (Luck K) → Slot} {tail : Rand} {s₀ : Node} (wf : s₀.WF)
    (f : FixedCounts plan) (he : s₀.numEffects ≠ 0) (hp : s₀.numPalettes ≠ 0)
    (hKe : s₀.numEffects.toNat ∣ K) (hKp : s₀.numPalettes.toNat ∣ K) (Q : Nat → Nat → Prop) (T N : Nat) :
    (Finset.univ.filter fun w : Fin T → Luck K =>
        N ≤ rotations plan tail s₀ (List.ofFn w) ∧ ¬ CameUp plan tail s₀ Q (List.ofFn w)).card *
          (s₀.numEffects.toNat * s₀.numPalettes.toNat) ^ N ≤
      ((Finset.range s₀.numEffects.toNat ×ˢ Finset.range s₀.numPalettes.toNat).filter
        fun x => ¬ Q x.1 x.2).card ^ N * Fintype.card (Fin T → Luck K) := by
  rw [Fintype.card_fun, Fintype.card_fin]
  have key := step_sum (avoiding_sum_cons wf f he hp hKe hKp (tail := tail) Q N rfl rfl) T
  have h0 : ∀ A B, avoiding N A B Q plan tail s₀ [] = B ^ N := fun A B => by
    rw [avoiding, if_neg, rotations]
    · simp
    · rintro ⟨ω, l', h, _⟩
      exact absurd (List.suffix_nil.1 h) (by simp)
  rw [h0] at key
  refine Nat.le_trans ?_ key
  rw [Finset.card_filter, Finset.sum_mul]
  refine Finset.sum_le_sum fun w _ => ?_
  split
  · rename_i h
    rw [avoiding, if_neg h.2, Nat.min_eq_right h.1, Nat.sub_eq_zero_of_le h.1, Nat.one_mul, Nat.pow_zero,
      Nat.mul_one]
  · simp

end Firefly
