import Verif.Lemmas.Odds
import Verif.Lemmas.Heartbeat
import Verif.Spec.Informed

/-! # Lemmas about a slave that is kept informed (C165) -/

namespace Firefly
open Spec

variable {K : Nat}

/-- The number of signs of life missed in a row, up to four, which is never left, and only of the first `N`
signs of life. -/
def row (N : Nat) (plan : List (Luck K) → Slot) (tail : Rand) (s₀ : Node) : List (Luck K) → Nat
  | [] => 0
  | ω :: l =>
    match plan l with
    | .hear _ _ =>
      if 4 ≤ row N plan tail s₀ l ∨ N ≤ reached plan l then row N plan tail s₀ l
      else if unheard (missed plan tail s₀ l).2 ω.1 then row N plan tail s₀ l + 1 else 0
    | .other _ => row N plan tail s₀ l

theorem row_le (N : Nat) (plan : List (Luck K) → Slot) (tail : Rand) (s₀ : Node) (l) :
    row N plan tail s₀ l ≤ 4 := by
  induction l with
  | nil => exact Nat.zero_le _
  | cons ω l ih =>
    simp only [row]
    split
    · split
      · exact ih
      · split <;> omega
    · exact ih

theorem row_suffix {N : Nat} {plan : List (Luck K) → Slot} {tail : Rand} {s₀ : Node} {l l' : List (Luck K)}
    (h : l' <:+ l) (h4 : 4 ≤ row N plan tail s₀ l') : 4 ≤ row N plan tail s₀ l := by
  obtain ⟨m, rfl⟩ := h
  induction m with
  | nil => exact h4
  | cons ω m ih =>
    rw [List.cons_append]
    simp only [row]
    split
    · rw [if_pos (Or.inl ih)]
      exact ih
    · exact ih

/-- What a row of length `c` weighs. -/
def weight (c : Nat) : Nat := 5 ^ (4 - c) * 65533 ^ c

theorem weight_succ {c : Nat} (hc : c < 4) : weight (c + 1) * 5 = weight c * 65533 := by
  have e : 4 - c = (4 - (c + 1)) + 1 := by omega
  rw [weight, weight, e, Nat.pow_succ, Nat.pow_succ]
  ring

/-- The weight of the row, and that of the signs of life still to come. -/
def outlook (N : Nat) (plan : List (Luck K) → Slot) (tail : Rand) (s₀ : Node) (l : List (Luck K)) : Nat :=
  weight (row N plan tail s₀ l) + (N - reached plan l) * weight 0

theorem outlook_sum_cons (hK : 65533 ∣ K) (N : Nat) (plan : List (Luck K) → Slot) (tail : Rand) (s₀ : Node)
    (l : List (Luck K)) :
    (∑ ω : Luck K, outlook N plan tail s₀ (ω :: l)) ≤ Fintype.card (Luck K) * outlook N plan tail s₀ l := by
  have same : (∀ ω : Luck K, row N plan tail s₀ (ω :: l) = row N plan tail s₀ l) →
      (∑ ω : Luck K, outlook N plan tail s₀ (ω :: l)) ≤ Fintype.card (Luck K) * outlook N plan tail s₀ l := by
    intro e
    have e' : ∀ ω ∈ (Finset.univ : Finset (Luck K)), outlook N plan tail s₀ (ω :: l) ≤ outlook N plan tail s₀ l := by
      intro ω _
      rw [outlook, outlook, e ω]
      refine Nat.add_le_add_left (Nat.mul_le_mul_right _ ?_) _
      have : reached plan (ω :: l) = reached plan l + (plan l).beats := rfl
      omega
    refine Nat.le_trans (Finset.sum_le_sum e') ?_
    rw [Finset.sum_const, Finset.card_univ, nsmul_eq_mul, Nat.cast_id]
  cases hp : plan l with
  | other op =>
    refine same fun ω => ?_
    simp only [row]
    rw [hp]
  | hear now p =>
    by_cases h4 : 4 ≤ row N plan tail s₀ l ∨ N ≤ reached plan l
    · refine same fun ω => ?_
      simp only [row]
      rw [hp]
      exact if_pos h4
    · obtain ⟨h4, hN⟩ := not_or.1 h4
      have e : ∀ ω : Luck K, outlook N plan tail s₀ (ω :: l) ≤
          (if unheard (missed plan tail s₀ l).2 ω.1 then weight (row N plan tail s₀ l + 1) else 0) +
            (N - reached plan l) * weight 0 := by
        intro ω
        have hr : reached plan (ω :: l) = reached plan l + 1 := by
          simp only [reached]
          rw [hp]
          rfl
        have hN' : N - reached plan l = (N - (reached plan l + 1)) + 1 := by omega
        rw [outlook, hr, hN', Nat.add_mul, Nat.one_mul]
        simp only [row]
        rw [hp]
        simp only
        rw [if_neg (not_or.2 ⟨h4, hN⟩)]
        split <;> omega
      refine Nat.le_trans (Finset.sum_le_sum fun ω _ => e ω) ?_
      rw [Finset.sum_add_distrib, Finset.sum_const, Finset.card_univ, nsmul_eq_mul, Nat.cast_id,
        outlook, Nat.mul_add]
      refine Nat.add_le_add_right ?_ _
      have hs := weight_succ (c := row N plan tail s₀ l) (by omega)
      have h' := unheard_count hK (missed plan tail s₀ l).2
      have e' : (∑ ω : Luck K,
          if unheard (missed plan tail s₀ l).2 ω.1 then weight (row N plan tail s₀ l + 1) else 0) =
          (Finset.univ.filter fun u : Fin K => unheard (missed plan tail s₀ l).2 u).card *
            (Fintype.card (Fin K × Fin K × Fin K) * weight (row N plan tail s₀ l + 1)) := by
        rw [Fintype.sum_prod_type, Finset.card_filter, Finset.sum_mul]
        refine Finset.sum_congr rfl fun x _ => ?_
        split <;> simp
      have hc : Fintype.card (Luck K) = K * Fintype.card (Fin K × Fin K × Fin K) := by
        rw [Fintype.card_prod, Fintype.card_fin]
      rw [e', hc]
      generalize Fintype.card (Fin K × Fin K × Fin K) = c at *
      generalize (Finset.univ.filter fun u : Fin K => unheard (missed plan tail s₀ l).2 u).card = a at *
      generalize weight (row N plan tail s₀ l + 1) = v at *
      generalize weight (row N plan tail s₀ l) = u at *
      refine Nat.le_of_mul_le_mul_right (c := 65533) ?_ (by decide)
      calc a * (c * v) * 65533 = a * 65533 * (c * v) := by ring
        _ ≤ 5 * K * (c * v) := Nat.mul_le_mul_right _ h'
        _ = K * c * (v * 5) := by ring
        _ = _ := by rw [hs]; ring

theorem outlook_sum (hK : 65533 ∣ K) (N : Nat) (plan : List (Luck K) → Slot) (tail : Rand) (s₀ : Node) :
    ∀ n, (∑ w : Fin n → Luck K, outlook N plan tail s₀ (List.ofFn w)) ≤
      (N + 1) * weight 0 * Fintype.card (Luck K) ^ n
  | 0 => by
    simp [outlook, row, reached]
    rw [Nat.add_mul, Nat.one_mul, Nat.add_comm]
  | n + 1 => by
    rw [← (Fin.consEquiv fun _ => Luck K).sum_comp, Fintype.sum_prod_type, Finset.sum_comm]
    simp only [Fin.consEquiv, Equiv.coe_fn_mk, List.ofFn_cons]
    calc _ ≤ ∑ w : Fin n → Luck K,
          Fintype.card (Luck K) * outlook N plan tail s₀ (List.ofFn w) :=
          Finset.sum_le_sum fun w _ => outlook_sum_cons hK _ _ _ _ _
      _ = Fintype.card (Luck K) * (∑ w : Fin n → Luck K, outlook N plan tail s₀ (List.ofFn w)) := by
          rw [← Finset.mul_sum]
      _ ≤ Fintype.card (Luck K) * ((N + 1) * weight 0 * Fintype.card (Luck K) ^ n) :=
          Nat.mul_le_mul_left _ (outlook_sum hK N plan tail s₀ n)
      _ = _ := by ring

/-- As long as no four signs of life in a row are missed the slave has time left. -/
structure Patient (N : Nat) (plan : List (Luck K) → Slot) (tail : Rand) (s₀ : Node) (t : Nat) (l : List (Luck K)) :
    Prop where
  slave : (missed plan tail s₀ l).2.state = .slave
  inst : IsInstruction (missed plan tail s₀ l).2.setEffectPacket
  timer : lastReached plan t l + 5000 ≤
    (missed plan tail s₀ l).2.timers.heartbeat.toNat + 1250 * row N plan tail s₀ l

theorem patient {N : Nat} {plan : List (Luck K) → Slot} {tail : Rand} {s₀ : Node} {t : Nat} (wf : s₀.WF)
    (hs : s₀.state = .slave) (hi : IsInstruction s₀.setEffectPacket)
    (ht : t + 5000 ≤ s₀.timers.heartbeat.toNat) (k : KeptInformed plan t) (l : List (Luck K))
    (hN : reached plan l ≤ N) (hr : row N plan tail s₀ l < 4) : Patient N plan tail s₀ t l := by
  induction l with
  | nil => exact ⟨hs, hi, by simpa [row, lastReached, missed] using ht⟩
  | cons ω l ih =>
    have hl : row N plan tail s₀ l < 4 := by
      apply Decidable.byContradiction
      intro h
      have h' := row_suffix (N := N) (plan := plan) (tail := tail) (s₀ := s₀) (List.suffix_cons ω l) (by omega)
      omega
    have hN' : reached plan l + (plan l).beats ≤ N := hN
    obtain ⟨i1, i2, i3⟩ := ih (by omega) hl
    have wf' := missed_wf (plan := plan) (tail := tail) wf l
    have wf'' : ({ (missed plan tail s₀ l).2 with rand := supply tail ω } : Node).WF :=
      ⟨wf'.idx, wf'.next, wf'.timerNone⟩
    have c1 := k.after l
    have c2 := k.soon l
    have c3 := k.clock l
    have c4 := k.proper l
    have c5 := k.sign l
    have e1 : row N plan tail s₀ (ω :: l) = match plan l with
      | .hear _ _ => if unheard (missed plan tail s₀ l).2 ω.1 then row N plan tail s₀ l + 1 else 0
      | .other _ => row N plan tail s₀ l := by
      simp only [row]
      split
      · rename_i now p hp
        rw [hp] at hN'
        have hN' : reached plan l + 1 ≤ N := hN'
        rw [if_neg (by omega)]
      · rfl
    have e2 : lastReached plan t (ω :: l) = match plan l with
      | .hear now _ => now.toNat
      | .other _ => lastReached plan t l := rfl
    have e3 : (missed plan tail s₀ (ω :: l)).2 =
        match ((plan l).anyOp ω).step .arduino
          { (missed plan tail s₀ l).2 with rand := supply tail ω } with
        | .error _ => { (missed plan tail s₀ l).2 with rand := supply tail ω }
        | .ok s' => s' := by
      simp only [missed]
      split <;> simp_all
    generalize hsz : ({ (missed plan tail s₀ l).2 with rand := supply tail ω } : Node) = s at *
    have j1 : s.state = .slave := by rw [← hsz]; exact i1
    have j2 : IsInstruction s.setEffectPacket := by rw [← hsz]; exact i2
    have j3 : s.timers.heartbeat = (missed plan tail s₀ l).2.timers.heartbeat := by rw [← hsz]
    have j4 : s.nm = (missed plan tail s₀ l).2.nm := by rw [← hsz]
    rw [← j3] at i3
    cases hp : plan l with
    | other op =>
      rw [hp] at e1 e2 e3 c1 c2 c3
      simp only [Slot.anyOp] at e3
      simp only [Slot.time] at c1 c2 c3
      simp only at e1 e2
      cases hst : op.step .arduino s with
      | error f =>
        rw [hst] at e3
        simp only at e3
        exact ⟨by rw [e3]; exact j1, by rw [e3]; exact j2, by rw [e3, e1, e2]; exact i3⟩
      | ok s' =>
        rw [hst] at e3
        simp only at e3
        have inst := Node.step_instruction wf'' j2 (fun now q ho => c4 now q (by rw [hp, ho])) hst
        have st := Node.hb_step (plat := .arduino) (op := op) (s := s) (s' := s') wf'' j2 hst
          (by omega)
        refine ⟨?_, by rw [e3]; exact inst, ?_⟩
        · rw [e3]
          cases st with
          | keep a => exact a.trans j1
          | rearm a => exact a
          | takeOver _ _ _ a =>
            have a : s.timers.heartbeat < op.time := a
            rw [BitVec.lt_def] at a
            omega
          | beat a => exact absurd (j1.symm.trans a) (by decide)
        · rw [e3, e1, e2]
          cases st with
          | keep _ a =>
            have a : s'.timers.heartbeat = s.timers.heartbeat := a
            rw [a]; exact i3
          | rearm _ a =>
            have a : op.time.toNat + 5000 ≤ s'.timers.heartbeat.toNat := a
            omega
          | takeOver _ _ _ a =>
            have a : s.timers.heartbeat < op.time := a
            rw [BitVec.lt_def] at a
            omega
          | beat a => exact absurd (j1.symm.trans a) (by decide)
    | hear now p =>
      rw [hp] at e1 e2 e3 c1 c2 c3
      simp only [Slot.anyOp] at e3
      simp only [Slot.time] at c1 c2 c3
      simp only at e1 e2
      have wfs : s.WF := wf''
      obtain ⟨s', hst⟩ : ∃ s', s.radioTick .arduino now
          (some { p with id := BitVec.ofNat 16 (2 + ω.1.val % 65533) }) = .ok s' := by
        rcases Node.radioTick_result (plat := .arduino) (now := now)
          (rx := some { p with id := BitVec.ofNat 16 (2 + ω.1.val % 65533) }) wfs with ⟨t, h1, _⟩ | h1 | h1
        · exact ⟨t, h1⟩
        · cases h1.1
        · cases h1.1
      have hst : Op.step .arduino (.radioTick now
          (some { p with id := BitVec.ofNat 16 (2 + ω.1.val % 65533) })) s = .ok s' := hst
      rw [hst] at e3
      simp only at e3
      have inst := Node.step_instruction wfs j2 (fun _ _ ho => by cases ho) hst
      have st := Node.hb_step wfs j2 hst (show now.toNat + 255000 < 2 ^ 32 by omega)
      have hh := heard_tick (s' := s') (now := now)
        (rx := some { p with id := BitVec.ofNat 16 (2 + ω.1.val % 65533) }) wfs
      have nb : ∀ {P : Prop}, s.timers.heartbeat < now → P := by
        intro P a
        rw [BitVec.lt_def] at a
        omega
      by_cases hu : unheard (missed plan tail s₀ l).2 ω.1
      · rw [if_pos hu] at e1
        have hd : s.delivered (some { p with id := BitVec.ofNat 16 (2 + ω.1.val % 65533) }) = none := by
          simp only [Node.delivered]
          rw [if_pos (by rw [j4]; exact hu)]
        have nm : ¬ Entry.HeardMaster ⟨s, .radioTick now
            (some { p with id := BitVec.ofNat 16 (2 + ω.1.val % 65533) }), s'⟩ := by
          rintro ⟨q, hq, _⟩
          rw [hh, hd] at hq
          cases hq
        refine ⟨?_, by rw [e3]; exact inst, ?_⟩
        · rw [e3]
          cases st with
          | keep a => exact a.trans j1
          | rearm _ _ _ _ a => exact absurd a nm
          | takeOver _ _ _ a => exact nb a
          | beat a => exact absurd (j1.symm.trans a) (by decide)
        · rw [e3, e1, e2]
          cases st with
          | keep _ a =>
            have a : s'.timers.heartbeat = s.timers.heartbeat := a
            rw [a]; omega
          | rearm _ _ _ _ a => exact absurd a nm
          | takeOver _ _ _ a => exact nb a
          | beat a => exact absurd (j1.symm.trans a) (by decide)
      · rw [if_neg hu] at e1
        have hd : s.delivered (some { p with id := BitVec.ofNat 16 (2 + ω.1.val % 65533) }) =
            some { p with id := BitVec.ofNat 16 (2 + ω.1.val % 65533) } := by
          simp only [Node.delivered]
          rw [if_neg (by rw [j4]; exact hu)]
        have hm : Entry.HeardMaster ⟨s, .radioTick now
            (some { p with id := BitVec.ofNat 16 (2 + ω.1.val % 65533) }), s'⟩ :=
          ⟨_, hh.trans hd, c5 now p hp⟩
        refine ⟨?_, by rw [e3]; exact inst, ?_⟩
        · rw [e3]
          cases st with
          | keep _ _ _ a => exact absurd hm (a j1)
          | rearm a => exact a
          | takeOver _ _ _ a => exact nb a
          | beat a => exact absurd (j1.symm.trans a) (by decide)
        · rw [e3, e1, e2]
          cases st with
          | keep _ _ _ a => exact absurd hm (a j1)
          | rearm _ a =>
            have a : now.toNat + 5000 ≤ s'.timers.heartbeat.toNat := a
            omega
          | takeOver _ _ _ a => exact nb a
          | beat a => exact absurd (j1.symm.trans a) (by decide)

end Firefly
