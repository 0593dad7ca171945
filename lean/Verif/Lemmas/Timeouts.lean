import Verif.Lemmas.Odds

/-! # The odds of the time-outs: lemmas -/

namespace Firefly
open Spec

theorem timeout_armed {now rx} {s : Node} (wf : s.WF) (hs : s.state = .slave) {p : Packet}
    (hd : s.delivered rx = some p) (hp : p.type = .heartbeat ∨ p.type = .claimMaster) :
    ∃ s', s.radioTick .arduino now rx = .ok s' ∧ s'.state = .slave ∧
      s'.timers.heartbeat = now + BitVec.ofNat 32 (5000 + s.rand 0 % 2000) := by
  rcases Node.radioTick_result (plat := .arduino) (now := now) (rx := rx) wf with ⟨t, ht, c⟩ | h | h
  · refine ⟨t, ht, ?_⟩
    cases c with
    | slaveHeartbeat | slaveClaim =>
      rw [Node.armSlaveTimeout_eq]
      exact ⟨hs, rfl⟩
    | slaveQuiet e | masterQuiet e | takeOver e | beat e | change e | «repeat» e => rw [hd] at e; cases e
    | electionWon _ _ e | electionLost _ _ e | masterClaim _ _ e | masterEffect _ _ e
    | masterControl _ _ e => rw [hs] at e; cases e
    | slaveEffect q e _ k | slaveControl q e _ k =>
      rw [hd] at e; cases e
      rcases hp with hp | hp <;> (rw [hp] at k; cases k)
    | other q _ _ e k =>
      rw [hd] at e; cases e
      rcases hp with hp | hp <;> (rw [hp] at k; cases k)
  · cases h.1
  · cases h.1

theorem quiet_slave {now rx} {s s' : Node} (wf : s.WF) (hs : s.state = .slave)
    (hd : s.delivered rx = none) (h : s.radioTick .arduino now rx = .ok s') :
    (s'.state = .master ↔ s.timers.heartbeat ≠ 0 ∧ s.timers.heartbeat < now) ∧
      (s'.state ≠ .master → s' = s) := by
  rw [← Node.timerExpired_heartbeat wf]
  cases Node.radioTick_cases wf h with
  | slaveQuiet _ _ ht =>
    exact ⟨⟨fun e => by rw [hs] at e; (cases e), fun e => absurd e ht⟩, fun _ => rfl⟩
  | takeOver _ _ ht =>
    have e : (Node.afterBeginMaster .arduino now { s with timers := { s.timers with heartbeat := 0 } }).state =
      .master := rfl
    exact ⟨⟨fun _ => ht, fun _ => e⟩, fun k => absurd e k⟩
  | masterQuiet _ e | beat _ e | change _ e | «repeat» _ e => rw [hs] at e; cases e
  | slaveHeartbeat _ e | slaveClaim _ e | slaveEffect _ e | slaveControl _ e | other _ _ _ e
  | electionWon _ e | electionLost _ e | masterClaim _ e | masterEffect _ e | masterControl _ e =>
    rw [hd] at e; cases e

theorem after_takes_over {K : Nat} {d : Listener} (pr : d.Proper) (tail : Rand) (ω : Luck K) :
    ∃ s', d.After tail ω s' ∧ d.TakesOverAfter s' (d.time + 5000 + ω.2.1.val % 2000) := by
  obtain ⟨t₀, h, run⟩ := pr.run
  obtain ⟨p, hp, ht⟩ := pr.hears
  have hs : d.s.state = .slave := pr.slave
  have wf : ({ d.s with rand := supply tail ω } : Node).WF := ⟨run.wf.idx, run.wf.next, run.wf.timerNone⟩
  have hd : ({ d.s with rand := supply tail ω } : Node).delivered d.rx = some p := by
    have e : d.s.delivered d.rx = some p := hp.delivered run.wf
    exact e
  obtain ⟨s', h1, h2, h3⟩ := timeout_armed (now := BitVec.ofNat 32 (d.time - d.on)) wf hs hd ht
  refine ⟨s', h1, ?_⟩
  intro y hy hy' rx s'' hq hk
  have wf' : s'.WF := Node.step_wf (op := .radioTick _ _) wf h1
  have hkk := quiet_slave wf' h2 (hq.delivered wf') hk
  have hr : (supply tail ω) 0 = ω.2.1.val := rfl
  have e0 := pr.on_le
  have e1 := pr.clock
  have e2 := Nat.mod_lt ω.2.1.val (show 2000 > 0 by decide)
  have hb : s'.timers.heartbeat.toNat = d.time - d.on + 5000 + ω.2.1.val % 2000 := by
    rw [h3, BitVec.toNat_add, BitVec.toNat_ofNat, BitVec.toNat_ofNat]
    simp only [hr]
    omega
  have hne : s'.timers.heartbeat ≠ 0 := by
    intro h0
    rw [h0] at hb
    have : (0 : U32).toNat = 0 := rfl
    omega
  have hlt : s'.timers.heartbeat < BitVec.ofNat 32 (y - d.on) ↔ d.time + 5000 + ω.2.1.val % 2000 < y := by
    rw [BitVec.lt_def, hb, BitVec.toNat_ofNat]
    omega
  have key : s''.state = .master ↔ d.time + 5000 + ω.2.1.val % 2000 < y := by
    rw [hkk.1, hlt]
    exact ⟨fun x => x.2, fun x => ⟨hne, x⟩⟩
  exact ⟨key, fun hle => hkk.2 fun e => absurd (key.1 e) (by omega)⟩

/-- There is only one such time. -/
theorem takes_over_unique {K : Nat} {d : Listener} (pr : d.Proper) {tail : Rand} {ω : Luck K} {s' : Node}
    {x : Nat} (h : d.After tail ω s') (hx : d.TakesOverAfter s' x) :
    x = d.time + 5000 + ω.2.1.val % 2000 := by
  obtain ⟨t, h1, h2⟩ := after_takes_over pr tail ω
  have : t = s' := by
    have e := h1.symm.trans h
    cases e; rfl
  subst this
  have e0 := pr.on_le
  have e1 := pr.clock
  have e2 := Nat.mod_lt ω.2.1.val (show 2000 > 0 by decide)
  obtain ⟨t₀, h₀, run⟩ := pr.run
  have wf : ({ d.s with rand := supply tail ω } : Node).WF := ⟨run.wf.idx, run.wf.next, run.wf.timerNone⟩
  have wf' : t.WF := Node.step_wf (op := .radioTick _ _) wf h
  have step : ∀ y, d.time ≤ y → y - d.on < 2 ^ 32 → (x < y ↔ d.time + 5000 + ω.2.1.val % 2000 < y) := by
    intro y hy hy'
    rcases Node.radioTick_result (plat := .arduino) (now := BitVec.ofNat 32 (y - d.on)) (rx := none) wf'
      with ⟨u, hu, _⟩ | hu | hu
    · have q : Quiet t none := quiet_of_delivered rfl
      exact (hx y hy hy' none u q hu).1.symm.trans (h2 y hy hy' none u q hu).1
    · cases hu.1
    · cases hu.1
  have s1 := step (d.time + 5000 + ω.2.1.val % 2000) (by omega) (by omega)
  have s2 := step (d.time + 5000 + ω.2.1.val % 2000 + 1) (by omega) (by omega)
  omega

section
variable {K : Nat}

/-- The first two draws of a device are uniform and independent. -/
theorem luck_two {n m : Nat} (hn : n ∣ K) (hm : m ∣ K) (Q : Nat → Nat → Prop) [∀ a b, Decidable (Q a b)] :
    (Finset.univ.filter fun ω : Luck K => Q (ω.2.1.val % n) (ω.2.2.1.val % m)).card * (n * m) =
      ((Finset.range n ×ˢ Finset.range m).filter fun x => Q x.1 x.2).card * Fintype.card (Luck K) := by
  have h := uniform_two hn hm Q
  have e : (Finset.univ.filter fun ω : Luck K => Q (ω.2.1.val % n) (ω.2.2.1.val % m)).card =
      (Finset.univ.filter fun x : Fin K × Fin K => Q (x.1.val % n) (x.2.val % m)).card * (K * K) := by
    rw [Finset.card_filter, Finset.card_filter, Fintype.sum_prod_type]
    have e1 : ∀ u : Fin K, (∑ z : Fin K × Fin K × Fin K,
        if Q ((u, z).2.1.val % n) ((u, z).2.2.1.val % m) then 1 else 0) =
        (∑ x : Fin K × Fin K, if Q (x.1.val % n) (x.2.val % m) then 1 else 0) * K := by
      intro u
      rw [Fintype.sum_prod_type, Fintype.sum_prod_type, Finset.sum_mul]
      refine Finset.sum_congr rfl fun a _ => ?_
      rw [Fintype.sum_prod_type, Finset.sum_mul]
      refine Finset.sum_congr rfl fun b _ => ?_
      by_cases q : Q (a.val % n) (b.val % m) <;> simp [q]
    rw [Finset.sum_congr rfl fun u _ => e1 u, Finset.sum_const, Finset.card_univ, Fintype.card_fin,
      nsmul_eq_mul, Nat.cast_id]
    ring
  have hc : Fintype.card (Luck K) = K * K * (K * K) := by
    rw [Fintype.card_prod, Fintype.card_prod, Fintype.card_prod, Fintype.card_fin]
    ring
  rw [e, hc, Nat.mul_right_comm, h]
  ring

theorem window_count (a b δ : Nat) :
    ((Finset.range 2000).filter fun x => a ≤ b + x + δ ∧ b + x ≤ a + δ).card ≤ 2 * δ + 1 := by
  refine Nat.le_trans (Finset.card_le_card_of_injOn (t := Finset.range (2 * δ + 1)) (fun x => b + x + δ - a)
    ?_ ?_) (by rw [Finset.card_range])
  · intro x hx
    simp only [Finset.coe_filter, Finset.mem_range, Set.mem_ofPred_eq, Finset.coe_range, Set.mem_Iio] at hx ⊢
    omega
  · intro x hx y hy h
    simp only [Finset.coe_filter, Finset.mem_range, Set.mem_ofPred_eq] at hx hy h
    omega

/-- The time-outs of `i` and `j` are at most `δ` apart. -/
def close {n : Nat} (T : Fin n → Nat) (δ : Nat) (w : Fin n → Luck K) (i j : Fin n) : Prop :=
  T i + (w i).2.1.val % 2000 ≤ T j + (w j).2.1.val % 2000 + δ ∧
    T j + (w j).2.1.val % 2000 ≤ T i + (w i).2.1.val % 2000 + δ

instance {n : Nat} (T : Fin n → Nat) (δ : Nat) (w : Fin n → Luck K) (i j : Fin n) :
    Decidable (close T δ w i j) := inferInstanceAs (Decidable (_ ∧ _))

theorem close_one (hK : 2000 ∣ K) (a b δ : Nat) :
    (∑ ω : Luck K, if a ≤ b + ω.2.1.val % 2000 + δ ∧ b + ω.2.1.val % 2000 ≤ a + δ then 1 else 0) * 2000 ≤
      (2 * δ + 1) * Fintype.card (Luck K) := by
  have h := uniform_mod hK fun x => a ≤ b + x + δ ∧ b + x ≤ a + δ
  have h' := window_count a b δ
  have e : (∑ ω : Luck K, if a ≤ b + ω.2.1.val % 2000 + δ ∧ b + ω.2.1.val % 2000 ≤ a + δ then 1 else 0) =
      (Finset.univ.filter fun u : Fin K => a ≤ b + u.val % 2000 + δ ∧ b + u.val % 2000 ≤ a + δ).card *
        (K * Fintype.card (Fin K × Fin K)) := by
    have e1 : ∀ v : Fin K, (∑ _z : Fin K × Fin K,
        if a ≤ b + v.val % 2000 + δ ∧ b + v.val % 2000 ≤ a + δ then 1 else 0) =
        (if a ≤ b + v.val % 2000 + δ ∧ b + v.val % 2000 ≤ a + δ then 1 else 0) *
          Fintype.card (Fin K × Fin K) := by
      intro v; split <;> simp
    rw [Fintype.sum_prod_type]
    have e2 : ∀ u : Fin K, (∑ z : Fin K × Fin K × Fin K,
        if a ≤ b + (u, z).2.1.val % 2000 + δ ∧ b + (u, z).2.1.val % 2000 ≤ a + δ then 1 else 0) =
        (Finset.univ.filter fun u : Fin K => a ≤ b + u.val % 2000 + δ ∧ b + u.val % 2000 ≤ a + δ).card *
          Fintype.card (Fin K × Fin K) := by
      intro u
      rw [Fintype.sum_prod_type, Finset.card_filter, Finset.sum_mul]
      exact Finset.sum_congr rfl fun v _ => e1 v
    rw [Finset.sum_congr rfl fun u _ => e2 u, Finset.sum_const, Finset.card_univ, Fintype.card_fin,
      nsmul_eq_mul, Nat.cast_id]
    ring
  rw [e]
  have hc : Fintype.card (Luck K) = K * (K * Fintype.card (Fin K × Fin K)) := by
    rw [Fintype.card_prod, Fintype.card_prod, Fintype.card_fin]
  rw [hc]
  generalize Fintype.card (Fin K × Fin K) = c
  calc _ = (Finset.univ.filter fun u : Fin K => a ≤ b + u.val % 2000 + δ ∧ b + u.val % 2000 ≤ a + δ).card * 2000 *
        (K * c) := by ring
    _ = _ * K * (K * c) := by rw [h]
    _ ≤ (2 * δ + 1) * K * (K * c) := Nat.mul_le_mul_right _ (Nat.mul_le_mul_right _ h')
    _ = _ := by ring

theorem close_pair (hK : 2000 ∣ K) {n : Nat} (T : Fin n → Nat) (δ : Nat) {i j : Fin n} (hij : i ≠ j) :
    (∑ w : Fin n → Luck K, if close T δ w i j then 1 else 0) * 2000 ≤
      (2 * δ + 1) * Fintype.card (Fin n → Luck K) := by
  have hcard : Fintype.card (Fin n → Luck K) =
      Fintype.card (Luck K) * Fintype.card ({ k // k ≠ j } → Luck K) := by
    rw [Fintype.card_congr (Equiv.funSplitAt j (Luck K)), Fintype.card_prod]
  rw [hcard, ← (Equiv.funSplitAt j (Luck K)).symm.sum_comp, Fintype.sum_prod_type, Finset.sum_comm,
    Finset.sum_mul]
  calc _ ≤ ∑ _r : ({ k // k ≠ j } → Luck K), (2 * δ + 1) * Fintype.card (Luck K) := by
        refine Finset.sum_le_sum fun r _ => ?_
        refine Nat.le_trans (Nat.le_of_eq ?_)
          (close_one hK (T i + (r ⟨i, hij⟩).2.1.val % 2000) (T j) δ)
        congr 1
        refine Finset.sum_congr rfl fun ω _ => ?_
        have hi : (Equiv.funSplitAt j (Luck K)).symm (ω, r) i = r ⟨i, hij⟩ := by
          simp [Equiv.funSplitAt, Equiv.piSplitAt, hij]
        have hj : (Equiv.funSplitAt j (Luck K)).symm (ω, r) j = ω := by
          simp [Equiv.funSplitAt, Equiv.piSplitAt]
        simp only [close, hi, hj]
    _ = _ := by
        rw [Finset.sum_const, Finset.card_univ, nsmul_eq_mul, Nat.cast_id]
        ring

theorem close_any (hK : 2000 ∣ K) {n : Nat} (T : Fin n → Nat) (δ : Nat) :
    (Finset.univ.filter fun w : Fin n → Luck K => ∃ i j, i ≠ j ∧ close T δ w i j).card * 4000 ≤
      n * (n - 1) * (2 * δ + 1) * Fintype.card (Fin n → Luck K) := by
  have two : ∀ w : Fin n → Luck K, (if ∃ i j, i ≠ j ∧ close T δ w i j then 1 else 0) * 2 ≤
      ∑ p ∈ (Finset.univ : Finset (Fin n)).offDiag, if close T δ w p.1 p.2 then 1 else 0 := by
    intro w
    split
    · rename_i h
      obtain ⟨i, j, hij, hc⟩ := h
      rw [← Finset.card_filter]
      have : ({(i, j), (j, i)} : Finset (Fin n × Fin n)) ⊆
          (Finset.univ : Finset (Fin n)).offDiag.filter fun p => close T δ w p.1 p.2 := by
        intro p hp
        simp only [Finset.mem_insert, Finset.mem_singleton] at hp
        rcases hp with rfl | rfl
        · simp [Finset.mem_filter, hij, hc]
        · have hc' : close T δ w j i := ⟨hc.2, hc.1⟩
          simp [Finset.mem_filter, hij.symm, hc']
      refine Nat.le_trans (Nat.le_of_eq ?_) (Finset.card_le_card this)
      rw [Finset.card_pair]
      intro e
      exact hij (congrArg Prod.fst e)
    · simp
  rw [Finset.card_filter]
  have h1 := Finset.sum_le_sum (s := (Finset.univ : Finset (Fin n → Luck K))) fun w _ => two w
  rw [← Finset.sum_mul, Finset.sum_comm] at h1
  have h2 : (∑ p ∈ (Finset.univ : Finset (Fin n)).offDiag,
      ∑ w : Fin n → Luck K, if close T δ w p.1 p.2 then 1 else 0) * 2000 ≤
      ∑ _p ∈ (Finset.univ : Finset (Fin n)).offDiag, (2 * δ + 1) * Fintype.card (Fin n → Luck K) := by
    rw [Finset.sum_mul]
    refine Finset.sum_le_sum fun p hp => ?_
    exact close_pair hK T δ (by simpa using hp)
  rw [Finset.sum_const, Finset.offDiag_card, Finset.card_univ, Fintype.card_fin, nsmul_eq_mul,
    Nat.cast_id] at h2
  have hn : n * n - n = n * (n - 1) := by rw [Nat.mul_sub, Nat.mul_one]
  rw [hn] at h2
  rw [Nat.mul_assoc (n * (n - 1)), show 4000 = 2 * 2000 from rfl, ← Nat.mul_assoc]
  exact Nat.le_trans (Nat.mul_le_mul_right 2000 h1) h2

end

end Firefly
