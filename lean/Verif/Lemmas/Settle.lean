import Verif.Lemmas.Winnow
import Verif.Spec.Settle

/-! # A network settles on one master: lemmas (C175) -/

namespace Firefly
open Spec

variable {n K : Nat}

/-! ### One step of one device -/

theorem not_master {s : Node} (h : s.state ≠ .master) : s.state = .slave := by
  cases hs : s.state
  · rfl
  · exact absurd hs h

theorem lived_slave {tail : Rand} {ω : Luck K} {slot : Slot} {s : Node} {last c : Nat} (wf : s.WF)
    (hs : s.state = .slave) (hi : IsInstruction s.setEffectPacket) (hc : c < 4)
    (ht : last + 5000 ≤ s.timers.heartbeat.toNat + 1250 * c)
    (c1 : last ≤ slot.time) (c2 : slot.time ≤ last + 1250) (c3 : slot.time + 255000 < 2 ^ 32)
    (c4 : ∀ now p, slot = .other (.setEffect now p) → IsInstruction p)
    (c5 : ∀ now p, slot = .hear now p → p.type = .heartbeat ∨ p.type = .claimMaster) :
    (lived tail ω slot s).state = .slave ∧ IsInstruction (lived tail ω slot s).setEffectPacket ∧
      (if slot.beats = 1 then slot.time else last) + 5000 ≤
        (lived tail ω slot s).timers.heartbeat.toNat +
          1250 * (if slot.beats = 1 then (if unheard s ω.1 then c + 1 else 0) else c) := by
  have wf' : ({ s with rand := supply tail ω } : Node).WF := ⟨wf.idx, wf.next, wf.timerNone⟩
  have e3 : lived tail ω slot s = match (slot.anyOp ω).step .arduino { s with rand := supply tail ω } with
      | .error _ => { s with rand := supply tail ω }
      | .ok s' => s' := rfl
  generalize hsz : ({ s with rand := supply tail ω } : Node) = r at *
  have j1 : r.state = .slave := by rw [← hsz]; exact hs
  have j2 : IsInstruction r.setEffectPacket := by rw [← hsz]; exact hi
  have j3 : r.timers.heartbeat = s.timers.heartbeat := by rw [← hsz]
  have j4 : r.nm = s.nm := by rw [← hsz]
  rw [← j3] at ht
  cases slot with
  | other op =>
    simp only [Slot.anyOp] at e3
    simp only [Slot.time] at c1 c2 c3
    have hb : (Slot.other op).beats ≠ 1 := by simp [Slot.beats]
    rw [if_neg hb, if_neg hb]
    cases hst : op.step .arduino r with
    | error f =>
      rw [hst] at e3
      simp only at e3
      rw [e3]
      exact ⟨j1, j2, ht⟩
    | ok s' =>
      rw [hst] at e3
      simp only at e3
      have inst := Node.step_instruction wf' j2 (fun now q ho => c4 now q (by rw [ho])) hst
      have st := Node.hb_step (plat := .arduino) (op := op) (s := r) (s' := s') wf' j2 hst (by omega)
      rw [e3]
      refine ⟨?_, inst, ?_⟩
      · cases st with
        | keep a => exact a.trans j1
        | rearm a => exact a
        | takeOver _ _ _ a =>
          have a : r.timers.heartbeat < op.time := a
          rw [BitVec.lt_def] at a
          omega
        | beat a => exact absurd (j1.symm.trans a) (by decide)
      · cases st with
        | keep _ a =>
          have a : s'.timers.heartbeat = r.timers.heartbeat := a
          rw [a]; exact ht
        | rearm _ a =>
          have a : op.time.toNat + 5000 ≤ s'.timers.heartbeat.toNat := a
          omega
        | takeOver _ _ _ a =>
          have a : r.timers.heartbeat < op.time := a
          rw [BitVec.lt_def] at a
          omega
        | beat a => exact absurd (j1.symm.trans a) (by decide)
  | hear now p =>
    simp only [Slot.anyOp] at e3
    simp only [Slot.time] at c1 c2 c3
    have hb : (Slot.hear now p).beats = 1 := rfl
    rw [if_pos hb, if_pos hb]
    simp only [Slot.time]
    obtain ⟨s', hst⟩ : ∃ s', r.radioTick .arduino now
        (some { p with id := BitVec.ofNat 16 (2 + ω.1.val % 65533) }) = .ok s' := by
      rcases Node.radioTick_result (plat := .arduino) (now := now)
        (rx := some { p with id := BitVec.ofNat 16 (2 + ω.1.val % 65533) }) wf' with ⟨t, h1, _⟩ | h1 | h1
      · exact ⟨t, h1⟩
      · cases h1.1
      · cases h1.1
    have hst : Op.step .arduino (.radioTick now
        (some { p with id := BitVec.ofNat 16 (2 + ω.1.val % 65533) })) r = .ok s' := hst
    rw [hst] at e3
    simp only at e3
    have inst := Node.step_instruction wf' j2 (fun _ _ ho => by cases ho) hst
    have st := Node.hb_step wf' j2 hst (show now.toNat + 255000 < 2 ^ 32 by omega)
    have hh := heard_tick (s' := s') (now := now)
      (rx := some { p with id := BitVec.ofNat 16 (2 + ω.1.val % 65533) }) wf'
    have nb : ∀ {P : Prop}, r.timers.heartbeat < now → P := by
      intro P a
      rw [BitVec.lt_def] at a
      omega
    rw [e3]
    by_cases hu : unheard s ω.1
    · rw [if_pos hu]
      have hd : r.delivered (some { p with id := BitVec.ofNat 16 (2 + ω.1.val % 65533) }) = none := by
        simp only [Node.delivered]
        rw [if_pos (by rw [j4]; exact hu)]
      have nm : ¬ Entry.HeardMaster ⟨r, .radioTick now
          (some { p with id := BitVec.ofNat 16 (2 + ω.1.val % 65533) }), s'⟩ := by
        rintro ⟨q, hq, _⟩
        rw [hh, hd] at hq
        cases hq
      refine ⟨?_, inst, ?_⟩
      · cases st with
        | keep a => exact a.trans j1
        | rearm _ _ _ _ a => exact absurd a nm
        | takeOver _ _ _ a => exact nb a
        | beat a => exact absurd (j1.symm.trans a) (by decide)
      · cases st with
        | keep _ a =>
          have a : s'.timers.heartbeat = r.timers.heartbeat := a
          rw [a]; omega
        | rearm _ _ _ _ a => exact absurd a nm
        | takeOver _ _ _ a => exact nb a
        | beat a => exact absurd (j1.symm.trans a) (by decide)
    · rw [if_neg hu]
      have hd : r.delivered (some { p with id := BitVec.ofNat 16 (2 + ω.1.val % 65533) }) =
          some { p with id := BitVec.ofNat 16 (2 + ω.1.val % 65533) } := by
        simp only [Node.delivered]
        rw [if_neg (by rw [j4]; exact hu)]
      have hm : Entry.HeardMaster ⟨r, .radioTick now
          (some { p with id := BitVec.ofNat 16 (2 + ω.1.val % 65533) }), s'⟩ :=
        ⟨_, hh.trans hd, c5 now p rfl⟩
      refine ⟨?_, inst, ?_⟩
      · cases st with
        | keep _ _ _ a => exact absurd hm (a j1)
        | rearm a => exact a
        | takeOver _ _ _ a => exact nb a
        | beat a => exact absurd (j1.symm.trans a) (by decide)
      · cases st with
        | keep _ _ _ a => exact absurd hm (a j1)
        | rearm _ a =>
          have a : now.toNat + 5000 ≤ s'.timers.heartbeat.toNat := a
          omega
        | takeOver _ _ _ a => exact nb a
        | beat a => exact absurd (j1.symm.trans a) (by decide)

theorem anyOp_time (slot : Slot) (ω : Luck K) : (slot.anyOp ω).time.toNat = slot.time := by
  cases slot <;> rfl

theorem anyOp_setEffect {slot : Slot} {ω : Luck K} {now : U32} {p : Packet}
    (h : slot.anyOp ω = .setEffect now p) : slot = .other (.setEffect now p) := by
  cases slot with
  | hear t q => cases h
  | other op => exact congrArg Slot.other h

/-- A master that yields has at least five seconds. -/
theorem lived_master {tail : Rand} {ω : Luck K} {slot : Slot} {s : Node} (wf : s.WF)
    (hs : s.state = .master) (hi : IsInstruction s.setEffectPacket) (c3 : slot.time + 255000 < 2 ^ 32)
    (c4 : ∀ now p, slot = .other (.setEffect now p) → IsInstruction p) :
    IsInstruction (lived tail ω slot s).setEffectPacket ∧
      ((lived tail ω slot s).state ≠ .master →
        slot.time + 5000 ≤ (lived tail ω slot s).timers.heartbeat.toNat) := by
  have wf' : ({ s with rand := supply tail ω } : Node).WF := ⟨wf.idx, wf.next, wf.timerNone⟩
  simp only [lived]
  split
  · exact ⟨hi, fun h => absurd hs h⟩
  · rename_i s' hst
    have inst := Node.step_instruction wf' hi (fun now q ho => c4 now q (anyOp_setEffect ho)) hst
    have st := Node.hb_step wf' hi hst (by rw [anyOp_time]; exact c3)
    refine ⟨inst, fun hne => ?_⟩
    cases st with
    | keep a => exact absurd (a.trans hs) hne
    | rearm _ a => rw [← anyOp_time slot ω]; exact a
    | takeOver a => exact absurd (hs.symm.trans a) (by decide)
    | beat _ a => exact absurd a hne

/-! ### The signs of life that a slave misses in a row -/

section
variable (N : Nat) (plan : List (Throw n K) → Fin n → Option Slot) (tail : Rand) (s₀ : Fin n → Node) (i : Fin n)

/-- The number of signs of life missed in a row while a slave, up to four, which is never left, and only of the
first `N` signs of life. -/
def rowIn : List (Throw n K) → Nat
  | [] => 0
  | ω :: l =>
    match plan l i with
    | some (.hear _ _) =>
      if 4 ≤ rowIn l ∨ N ≤ reachedIn plan i l then rowIn l
      else if (crowd plan tail s₀ l i).state = .slave ∧ unheard (crowd plan tail s₀ l i) (ω.for i).1
        then rowIn l + 1 else 0
    | _ => rowIn l

/-- The weight of the row, and that of the signs of life still to come. -/
def outlookIn (l : List (Throw n K)) : Nat :=
  weight (rowIn N plan tail s₀ i l) + (N - reachedIn plan i l) * weight 0

theorem rowIn_le (l) : rowIn N plan tail s₀ i l ≤ 4 := by
  induction l with
  | nil => exact Nat.zero_le _
  | cons ω l ih =>
    simp only [rowIn]
    split
    · split
      · exact ih
      · split <;> omega
    · exact ih

end

theorem rowIn_suffix {N : Nat} {plan : List (Throw n K) → Fin n → Option Slot} {tail : Rand} {s₀ : Fin n → Node}
    {i : Fin n} {l l' : List (Throw n K)} (h : l' <:+ l) (h4 : 4 ≤ rowIn N plan tail s₀ i l') :
    4 ≤ rowIn N plan tail s₀ i l := by
  obtain ⟨m, rfl⟩ := h
  induction m with
  | nil => exact h4
  | cons ω m ih =>
    rw [List.cons_append]
    simp only [rowIn]
    split
    · rw [if_pos (Or.inl ih)]
      exact ih
    · exact ih

theorem unheard_count_throw (hK : 65533 ∣ K) (i : Fin n) (s : Node) :
    (Finset.univ.filter fun ω : Throw n K => unheard s (ω.for i).1).card * 65533 ≤
      5 * Fintype.card (Throw n K) := by
  have h : (Finset.univ.filter fun ω : Throw n K => unheard s (ω.for i).1).card =
      (Finset.univ.filter fun u : Fin K => unheard s u).card *
        Fintype.card (Fin n → Fin K × Fin K × Fin K) := by
    rw [Finset.card_filter, Fintype.sum_prod_type, Finset.card_filter, Finset.sum_mul]
    refine Finset.sum_congr rfl fun x _ => ?_
    show (∑ _y : Fin n → Fin K × Fin K × Fin K, if unheard s x then 1 else 0) = _
    rw [Finset.sum_const, Finset.card_univ, nsmul_eq_mul, Nat.cast_id, Nat.mul_comm]
  have hc : Fintype.card (Throw n K) = K * Fintype.card (Fin n → Fin K × Fin K × Fin K) := by
    rw [Fintype.card_prod, Fintype.card_fin]
  rw [h, hc]
  have := Nat.mul_le_mul_right (Fintype.card (Fin n → Fin K × Fin K × Fin K)) (unheard_count hK s)
  calc _ = (Finset.univ.filter fun u : Fin K => unheard s u).card * 65533 *
        Fintype.card (Fin n → Fin K × Fin K × Fin K) := by ring
    _ ≤ _ := this
    _ = _ := by ring

theorem outlookIn_sum_cons (hK : 65533 ∣ K) (N : Nat) (plan : List (Throw n K) → Fin n → Option Slot)
    (tail : Rand) (s₀ : Fin n → Node) (i : Fin n) (l : List (Throw n K)) :
    (∑ ω : Throw n K, outlookIn N plan tail s₀ i (ω :: l)) ≤
      Fintype.card (Throw n K) * outlookIn N plan tail s₀ i l := by
  have same : (∀ ω : Throw n K, weight (rowIn N plan tail s₀ i (ω :: l)) + (N - reachedIn plan i (ω :: l)) * weight 0
        ≤ weight (rowIn N plan tail s₀ i l) + (N - reachedIn plan i l) * weight 0) →
      (∑ ω : Throw n K, outlookIn N plan tail s₀ i (ω :: l)) ≤
        Fintype.card (Throw n K) * outlookIn N plan tail s₀ i l := by
    intro e
    refine Nat.le_trans (Finset.sum_le_sum fun ω _ => e ω) ?_
    rw [Finset.sum_const, Finset.card_univ, nsmul_eq_mul, Nat.cast_id]
    exact Nat.le_refl _
  have keep : ∀ ω : Throw n K, rowIn N plan tail s₀ i (ω :: l) = rowIn N plan tail s₀ i l →
      weight (rowIn N plan tail s₀ i (ω :: l)) + (N - reachedIn plan i (ω :: l)) * weight 0
        ≤ weight (rowIn N plan tail s₀ i l) + (N - reachedIn plan i l) * weight 0 := by
    intro ω e
    rw [e]
    refine Nat.add_le_add_left (Nat.mul_le_mul_right _ ?_) _
    simp only [reachedIn]
    omega
  match hp : plan l i with
  | none =>
    refine same fun ω => keep ω ?_
    simp only [rowIn]
    rw [hp]
  | some (.other op) =>
    refine same fun ω => keep ω ?_
    simp only [rowIn]
    rw [hp]
  | some (.hear now p) =>
    by_cases h4 : 4 ≤ rowIn N plan tail s₀ i l ∨ N ≤ reachedIn plan i l
    · refine same fun ω => keep ω ?_
      simp only [rowIn]
      rw [hp]
      exact if_pos h4
    · obtain ⟨h4', hN⟩ := not_or.1 h4
      have hr : ∀ ω : Throw n K, reachedIn plan i (ω :: l) = reachedIn plan i l + 1 := by
        intro ω
        simp only [reachedIn]
        rw [hp]
        rfl
      have hN' : N - reachedIn plan i l = (N - (reachedIn plan i l + 1)) + 1 := by omega
      have e : ∀ ω : Throw n K, outlookIn N plan tail s₀ i (ω :: l) ≤
          (if unheard (crowd plan tail s₀ l i) (ω.for i).1 then 1 else 0) *
              weight (rowIn N plan tail s₀ i l + 1) +
            (N - reachedIn plan i l) * weight 0 := by
        intro ω
        rw [outlookIn, hr, hN', Nat.add_mul, Nat.one_mul]
        simp only [rowIn]
        rw [hp]
        simp only
        rw [if_neg h4]
        split
        · rename_i hu
          rw [if_pos hu.2]
          omega
        · omega
      refine Nat.le_trans (Finset.sum_le_sum fun ω _ => e ω) ?_
      rw [Finset.sum_add_distrib, Finset.sum_const, Finset.card_univ, nsmul_eq_mul, Nat.cast_id,
        outlookIn, Nat.mul_add]
      refine Nat.add_le_add_right ?_ _
      have hs := weight_succ (c := rowIn N plan tail s₀ i l) (by omega)
      have h' := unheard_count_throw (n := n) hK i (crowd plan tail s₀ l i)
      rw [← Finset.sum_mul, ← Finset.card_filter]
      generalize Fintype.card (Throw n K) = c at *
      generalize (Finset.univ.filter fun ω : Throw n K => unheard (crowd plan tail s₀ l i) (ω.for i).1).card = a at *
      generalize weight (rowIn N plan tail s₀ i l + 1) = v at *
      generalize weight (rowIn N plan tail s₀ i l) = u at *
      refine Nat.le_of_mul_le_mul_right (c := 65533) ?_ (by decide)
      calc a * v * 65533 = a * 65533 * v := by ring
        _ ≤ 5 * c * v := Nat.mul_le_mul_right _ h'
        _ = c * (v * 5) := by ring
        _ = _ := by rw [hs]; ring

theorem outlookIn_sum (hK : 65533 ∣ K) (N : Nat) (plan : List (Throw n K) → Fin n → Option Slot) (tail : Rand)
    (s₀ : Fin n → Node) (i : Fin n) :
    ∀ T, (∑ w : Fin T → Throw n K, outlookIn N plan tail s₀ i (List.ofFn w)) ≤
      (N + 1) * weight 0 * Fintype.card (Throw n K) ^ T
  | 0 => by
    have : ∀ w : Fin 0 → Throw n K, outlookIn N plan tail s₀ i (List.ofFn w) ≤ (N + 1) * weight 0 := fun w => by
      rw [List.ofFn_zero, outlookIn, rowIn, reachedIn, Nat.add_mul, Nat.one_mul, Nat.add_comm]
      exact Nat.le_refl _
    refine (Finset.sum_le_sum fun w _ => this w).trans ?_
    rw [Finset.sum_const, Finset.card_univ, nsmul_eq_mul, Nat.cast_id, Nat.mul_comm, Fintype.card_fun,
      Fintype.card_fin]
  | T + 1 => by
    rw [← (Fin.consEquiv fun _ => Throw n K).sum_comp, Fintype.sum_prod_type, Finset.sum_comm]
    simp only [Fin.consEquiv, Equiv.coe_fn_mk, List.ofFn_cons]
    calc _ ≤ ∑ w : Fin T → Throw n K, Fintype.card (Throw n K) * outlookIn N plan tail s₀ i (List.ofFn w) :=
          Finset.sum_le_sum fun w _ => outlookIn_sum_cons hK _ _ _ _ _ _
      _ = Fintype.card (Throw n K) * ∑ w : Fin T → Throw n K, outlookIn N plan tail s₀ i (List.ofFn w) := by
          rw [← Finset.mul_sum]
      _ ≤ Fintype.card (Throw n K) * ((N + 1) * weight 0 * Fintype.card (Throw n K) ^ T) :=
          Nat.mul_le_mul_left _ (outlookIn_sum hK N plan tail s₀ i T)
      _ = _ := by ring

/-- As long as no four signs of life in a row are missed a slave has time left, and a master was one all along. -/
structure PatientIn (N : Nat) (plan : List (Throw n K) → Fin n → Option Slot) (tail : Rand) (s₀ : Fin n → Node)
    (i : Fin n) (t : Nat) (l : List (Throw n K)) : Prop where
  inst : IsInstruction (crowd plan tail s₀ l i).setEffectPacket
  timer : ¬ MasterAt plan tail s₀ l i → lastNewsIn plan tail s₀ i t l + 5000 ≤
    (crowd plan tail s₀ l i).timers.heartbeat.toNat + 1250 * rowIn N plan tail s₀ i l
  always : MasterAt plan tail s₀ l i → ∀ l', l' <:+ l → MasterAt plan tail s₀ l' i

theorem suffix_cons_cases {l l' : List (Throw n K)} {ω : Throw n K} (h : l' <:+ ω :: l) :
    l' = ω :: l ∨ l' <:+ l := List.suffix_cons_iff.1 h

open Classical in
theorem patientIn {N : Nat} {plan : List (Throw n K) → Fin n → Option Slot} {tail : Rand} {s₀ : Fin n → Node}
    {i : Fin n} {t : Nat} (wf : ∀ i, (s₀ i).WF) (hi : IsInstruction (s₀ i).setEffectPacket)
    (ht : (s₀ i).state = .slave → t + 5000 ≤ (s₀ i).timers.heartbeat.toNat)
    (k : InformedAsSlave plan tail s₀ i t) (l : List (Throw n K))
    (hN : reachedIn plan i l ≤ N) (hr : rowIn N plan tail s₀ i l < 4) : PatientIn N plan tail s₀ i t l := by
  induction l with
  | nil =>
    refine ⟨hi, fun h => ?_, fun h l' hl => ?_⟩
    · have := ht (not_master h)
      simpa [rowIn, lastNewsIn, crowd] using this
    · rw [List.suffix_nil.1 hl]; exact h
  | cons ω l ih =>
    have hl : rowIn N plan tail s₀ i l < 4 := by
      apply Decidable.byContradiction
      intro h
      have h' := rowIn_suffix (N := N) (plan := plan) (tail := tail) (s₀ := s₀) (i := i) (List.suffix_cons ω l)
        (by omega)
      omega
    have hN' : reachedIn plan i l ≤ N := by
      simp only [reachedIn] at hN
      omega
    obtain ⟨i1, i2, i3⟩ := ih hN' hl
    have wfl := crowd_wf (plan := plan) (tail := tail) wf i l
    have more : MasterAt plan tail s₀ l i → MasterAt plan tail s₀ (ω :: l) i →
        ∀ l', l' <:+ ω :: l → MasterAt plan tail s₀ l' i := by
      intro h h' l' hl'
      rcases suffix_cons_cases hl' with rfl | hl'
      · exact h'
      · exact i3 h l' hl'
    cases hp : plan l i with
    | none =>
      have hc := crowd_idle tail s₀ ω hp
      have e1 : rowIn N plan tail s₀ i (ω :: l) = rowIn N plan tail s₀ i l := by
        simp only [rowIn]; rw [hp]
      have e2 : lastNewsIn plan tail s₀ i t (ω :: l) = lastNewsIn plan tail s₀ i t l := by
        simp only [lastNewsIn]; rw [hp]
      have hm : MasterAt plan tail s₀ (ω :: l) i ↔ MasterAt plan tail s₀ l i := by
        show (crowd plan tail s₀ (ω :: l) i).state = .master ↔ _
        rw [hc]
        exact Iff.rfl
      refine ⟨by rw [hc]; exact i1, fun h => ?_, fun h => more (hm.1 h) h⟩
      rw [e1, e2, hc]
      exact i2 fun h' => h (hm.2 h')
    | some slot =>
      have hc := crowd_lived tail s₀ ω hp
      have c3 := k.clock l slot hp
      have c4 : ∀ now p, slot = .other (.setEffect now p) → IsInstruction p :=
        fun now p h => k.proper l now p (by rw [hp, h])
      have e2 : lastNewsIn plan tail s₀ i t (ω :: l) =
          if slot.beats = 1 ∨ MasterAt plan tail s₀ l i then slot.time else lastNewsIn plan tail s₀ i t l := by
        rw [lastNewsIn, hp]
      by_cases hm : MasterAt plan tail s₀ l i
      · obtain ⟨a1, a2⟩ := lived_master (tail := tail) (ω := ω.for i) wfl hm i1 c3 c4
        rw [← hc] at a1 a2
        refine ⟨a1, fun h => ?_, fun h => more hm h⟩
        rw [e2, if_pos (.inr hm)]
        have := a2 h
        omega
      · have c5 : ∀ now p, slot = .hear now p → p.type = .heartbeat ∨ p.type = .claimMaster :=
          fun now p h => k.sign l now p (by rw [hp, h])
        obtain ⟨a1, a2, a3⟩ := lived_slave (tail := tail) (ω := ω.for i) wfl (not_master hm) i1 hl (i2 hm)
          (k.after l slot hp hm) (k.soon l slot hp hm) c3 c4 c5
        rw [← hc] at a1 a2 a3
        refine ⟨a2, fun _ => ?_, fun h => absurd (a1.symm.trans h) (by decide)⟩
        have e1 : rowIn N plan tail s₀ i (ω :: l) =
            if slot.beats = 1 then
              (if unheard (crowd plan tail s₀ l i) (ω.for i).1 then rowIn N plan tail s₀ i l + 1 else 0)
            else rowIn N plan tail s₀ i l := by
          simp only [rowIn]
          rw [hp]
          cases slot with
          | other op => rfl
          | hear now p =>
            have : reachedIn plan i l + 1 ≤ N := by
              simp only [reachedIn] at hN
              rw [hp] at hN
              exact hN
            simp only
            rw [if_neg (by omega), if_pos (show (Slot.hear now p).beats = 1 from rfl)]
            by_cases hu : unheard (crowd plan tail s₀ l i) (ω.for i).1
            · rw [if_pos ⟨not_master hm, hu⟩, if_pos hu]
            · rw [if_neg (fun h => hu h.2), if_neg hu]
        have e2' : lastNewsIn plan tail s₀ i t (ω :: l) =
            if slot.beats = 1 then slot.time else lastNewsIn plan tail s₀ i t l := by
          rw [e2]
          by_cases hb : slot.beats = 1
          · rw [if_pos (.inl hb), if_pos hb]
          · rw [if_neg (not_or.2 ⟨hb, hm⟩), if_neg hb]
        rw [e1, e2']
        exact a3

open Classical in
theorem tookOver_odds (hK : 65533 ∣ K) {plan : List (Throw n K) → Fin n → Option Slot} {tail : Rand}
    {s₀ : Fin n → Node} {i : Fin n} {t : Nat} (wf : ∀ i, (s₀ i).WF) (hi : IsInstruction (s₀ i).setEffectPacket)
    (ht : (s₀ i).state = .slave → t + 5000 ≤ (s₀ i).timers.heartbeat.toNat)
    (k : InformedAsSlave plan tail s₀ i t) (T N : Nat) :
    (Finset.univ.filter fun w : Fin T → Throw n K =>
        ∃ l, l <:+ List.ofFn w ∧ reachedIn plan i l ≤ N ∧ TookOver plan tail s₀ l i).card * 65533 ^ 4 ≤
      (N + 1) * 5 ^ 4 * Fintype.card (Fin T → Throw n K) := by
  rw [Fintype.card_fun, Fintype.card_fin]
  refine Nat.le_trans ?_ (outlookIn_sum hK N plan tail s₀ i T)
  rw [Finset.card_filter, Finset.sum_mul]
  refine Finset.sum_le_sum fun w _ => ?_
  split
  · rename_i hw
    obtain ⟨l, hl, hN, hm, l', hl', hs⟩ := hw
    have h4 : 4 ≤ rowIn N plan tail s₀ i l := by
      apply Decidable.byContradiction
      intro hr
      exact hs ((patientIn wf hi ht k l hN (Nat.lt_of_not_le hr)).always hm l' hl')
    have h4 := Nat.le_antisymm (rowIn_le N plan tail s₀ i (List.ofFn w)) (rowIn_suffix hl h4)
    rw [outlookIn, h4, Nat.one_mul]
    exact Nat.le_add_right _ _
  · simp

end Firefly
