import Verif.Spec.Duel
import Verif.Lemmas.Silence

/-! # Two masters that meet: lemmas -/

namespace Firefly
open Spec

theorem duel_beat {now : U32} {s s' : Node} {p : Packet} (wf : s.WF) (hs : s.state = .master)
    (h : s.radioTick .arduino now none = .ok s') (sent : s'.sent = s.sent ++ [p]) (hp : p.type = .heartbeat) :
    s'.state = .master ∧ s'.WF ∧ p.id = BitVec.ofNat 16 (2 + s.rand 0 % 65533) ∧
      p.id ∈ s'.nm.cache.toList := by
  have wf' : s'.WF := Node.step_wf (op := .radioTick now none) wf h
  cases Node.radioTick_cases wf h with
  | masterQuiet =>
    have := congrArg List.length sent
    simp at this
  | beat =>
    have e : s.sent ++ [Node.stamped .arduino (s.packet.writeHeartbeat (s.getNetworkMillis now)) s] = s.sent ++ [p] :=
      sent
    have e := List.append_cancel_left e
    cases e
    exact ⟨hs, wf', rfl, NM.mem_push _ wf.idx _⟩
  | change _ _ _ e pal r r' =>
    rw [Node.afterChange_sent] at sent
    have e := List.append_cancel_left sent
    cases e
    cases hp
  | «repeat» =>
    have e : s.sent ++ [Node.stamped .arduino s.setEffectPacket s] = s.sent ++ [p] := sent
    have e := List.append_cancel_left e
    cases e
    exact ⟨hs, wf', rfl, NM.mem_push _ wf.idx _⟩
  | slaveQuiet _ e | takeOver _ e => rw [hs] at e; cases e
  | slaveHeartbeat _ e | slaveClaim _ e | slaveEffect _ e | slaveControl _ e | other _ _ _ e
  | electionWon _ e | electionLost _ e | masterClaim _ e | masterEffect _ e | masterControl _ e => cases e

theorem duel_listen {now : U32} {s s' : Node} {p : Packet} (wf : s.WF) (hs : s.state = .master)
    (hd : s.delivered (some p) = some p) (hp : p.type = .heartbeat)
    (h : s.radioTick .arduino now (some p) = .ok s') :
    (p.id < electionId .arduino s.rand ∧ s'.state = .master ∧
      ∃ q, s'.sent = s.sent ++ [p] ++ [q] ∧ q.type = .claimMaster ∧
        q.id = BitVec.ofNat 16 (2 + s.rand 1 % 65533)) ∨
    (¬ p.id < electionId .arduino s.rand ∧ s'.state = .slave ∧ s'.sent = s.sent ++ [p]) := by
  cases Node.radioTick_cases wf h with
  | electionWon q e _ _ he =>
    rw [hd] at e; cases e
    exact .inl ⟨he, hs, _, rfl, rfl, rfl⟩
  | electionLost q e _ _ he =>
    rw [hd] at e; cases e
    exact .inr ⟨he, rfl, by rw [Node.afterBeginSlave, Node.armSlaveTimeout_eq]; rfl⟩
  | slaveQuiet e | masterQuiet e | takeOver e | beat e | change e | «repeat» e =>
    rw [hd] at e; cases e
  | slaveHeartbeat q e hs' | slaveClaim q e hs' | slaveEffect q e hs' | slaveControl q e hs' =>
    rw [hs] at hs'; cases hs'
  | other q _ _ e ht => rw [hd] at e; cases e; rw [hp] at ht; cases ht
  | masterClaim q e _ ht | masterEffect q e _ ht | masterControl q e _ ht =>
    rw [hd] at e; cases e; rw [hp] at ht; cases ht

theorem duel_quiet {now : U32} {rx : Option Packet} {s s' : Node} (wf : s.WF) (hs : s.state = .master)
    (hd : s.delivered rx = none) (h : s.radioTick .arduino now rx = .ok s') : s'.state = .master := by
  cases Node.radioTick_cases wf h with
  | masterQuiet => exact hs
  | beat => exact hs
  | change => exact hs
  | «repeat» => exact hs
  | slaveQuiet _ e | takeOver _ e => rw [hs] at e; cases e
  | slaveHeartbeat _ e | slaveClaim _ e | slaveEffect _ e | slaveControl _ e | other _ _ _ e
  | electionWon _ e | electionLost _ e | masterClaim _ e | masterEffect _ e | masterControl _ e =>
    rw [hd] at e; cases e

theorem duel_claimed {now : U32} {p : Packet} {s s' : Node} (wf : s.WF) (hs : s.state = .master)
    (hd : s.delivered (some p) = some p) (hp : p.type = .claimMaster)
    (h : s.radioTick .arduino now (some p) = .ok s') : s'.state = .slave := by
  cases Node.radioTick_cases wf h with
  | masterClaim => rfl
  | slaveQuiet e | masterQuiet e | takeOver e | beat e | change e | «repeat» e =>
    rw [hd] at e; cases e
  | slaveHeartbeat q e hs' | slaveClaim q e hs' | slaveEffect q e hs' | slaveControl q e hs' =>
    rw [hs] at hs'; cases hs'
  | other q _ _ e ht | electionWon q e _ ht | electionLost q e _ ht | masterEffect q e _ ht
  | masterControl q e _ ht =>
    rw [hd] at e; cases e; rw [hp] at ht; cases ht

theorem arduino_tick {now : U32} {rx : Option Packet} {s : Node} (wf : s.WF) :
    ∃ s', s.radioTick .arduino now rx = .ok s' := by
  rcases Node.radioTick_result (plat := .arduino) (now := now) (rx := rx) wf with
    ⟨s', h2, _⟩ | ⟨h, _⟩ | ⟨h, _⟩
  · exact ⟨s', h2⟩
  · cases h
  · cases h

/-- What the sender remembers when the reply arrives. -/
def duelMemory (d : Duel) (ra : Rand) : List U16 :=
  match { d.a with rand := ra }.radioTick .arduino d.ta none with
  | .ok a₁ => a₁.nm.cache.toList
  | .error _ => []

theorem duelMemory_length (d : Duel) (ra : Rand) : (duelMemory d ra).length ≤ 5 := by
  rw [duelMemory]
  split
  · rw [Vector.length_toList]
  · exact Nat.zero_le _

theorem duel_result {d : Duel} (pr : d.Proper) {ra rb : Rand} {a' b' : Node} (e : d.Ends ra rb a' b') :
    (2 + ra 0 % 65533 < 1 + rb 0 % 65534 ∧ b'.state = .master) ∨
      (¬ 2 + ra 0 % 65533 < 1 + rb 0 % 65534 ∧ b'.state = .slave) := by
  obtain ⟨a₁, p, h1, h2, h3, h4, -⟩ := e
  obtain ⟨_, _, runA⟩ := pr.runA
  obtain ⟨_, _, runB⟩ := pr.runB
  obtain ⟨a₂, p', k1, k2, k3⟩ := pr.beats ra
  rw [h1] at k1
  cases k1
  have ep := List.append_cancel_left (h2.symm.trans k2)
  cases ep
  have wfA : ({ d.a with rand := ra } : Node).WF := ⟨runA.wf.idx, runA.wf.next, runA.wf.timerNone⟩
  have wfB : ({ d.b with rand := rb } : Node).WF := ⟨runB.wf.idx, runB.wf.next, runB.wf.timerNone⟩
  obtain ⟨-, -, i1, -⟩ := duel_beat wfA pr.masterA h1 h2 k3
  have hd : ({ d.b with rand := rb } : Node).delivered (some p) = some p := by
    have e : d.b.delivered (some p) = some p := h3.delivered runB.wf
    exact e
  have i1 : p.id = BitVec.ofNat 16 (2 + ra 0 % 65533) := i1
  have key : p.id < electionId .arduino rb ↔ 2 + ra 0 % 65533 < 1 + rb 0 % 65534 := by
    rw [i1, BitVec.lt_def, electionId, BitVec.toNat_ofNat, BitVec.toNat_ofNat]
    omega
  rw [← key]
  rcases duel_listen wfB pr.masterB hd k3 h4 with ⟨j1, j2, -⟩ | ⟨j1, j2, -⟩
  · exact .inl ⟨j1, j2⟩
  · exact .inr ⟨j1, j2⟩

theorem duel_decided {d : Duel} (pr : d.Proper) {ra rb : Rand}
    (hb : BitVec.ofNat 16 (2 + ra 0 % 65533) ∉ d.b.nm.cache.toList)
    (ha : BitVec.ofNat 16 (2 + rb 1 % 65533) ∉ duelMemory d ra) :
    d.SenderWins ra rb ∨ d.ListenerWins ra rb := by
  obtain ⟨_, _, runA⟩ := pr.runA
  obtain ⟨_, _, runB⟩ := pr.runB
  obtain ⟨a₁, p, h1, h2, k3⟩ := pr.beats ra
  have wfA : ({ d.a with rand := ra } : Node).WF := ⟨runA.wf.idx, runA.wf.next, runA.wf.timerNone⟩
  have wfB : ({ d.b with rand := rb } : Node).WF := ⟨runB.wf.idx, runB.wf.next, runB.wf.timerNone⟩
  obtain ⟨m1, wf1, i1, c1⟩ := duel_beat wfA pr.masterA h1 h2 k3
  have i1 : p.id = BitVec.ofNat 16 (2 + ra 0 % 65533) := i1
  rw [← i1] at hb
  have hd : d.b.delivered (some p) = some p := by
    simp only [Node.delivered]
    rw [if_neg hb]
  have hd' : ({ d.b with rand := rb } : Node).delivered (some p) = some p := hd
  have hh : Hears d.b (some p) p := hears_of_delivered runB.wf hd
  obtain ⟨b', hb'⟩ := arduino_tick (now := d.tb) (rx := some p) wfB
  obtain ⟨a', ha'⟩ := arduino_tick (now := d.ta') (rx := b'.sent.getLast?) wf1
  have ends : d.Ends ra rb a' b' := ⟨a₁, p, h1, h2, hh, hb', ha'⟩
  rcases duel_listen wfB pr.masterB hd' k3 hb' with ⟨-, j2, q, j3, j4, j5⟩ | ⟨-, j2, j3⟩
  · refine .inr ⟨a', b', ends, ?_, j2⟩
    rw [j3, List.getLast?_append_of_ne_nil _ (by simp)] at ha'
    have ha' : a₁.radioTick .arduino d.ta' (some q) = .ok a' := ha'
    have hm : duelMemory d ra = a₁.nm.cache.toList := by rw [duelMemory, h1]
    have j5 : q.id = BitVec.ofNat 16 (2 + rb 1 % 65533) := j5
    rw [hm, ← j5] at ha
    refine duel_claimed wf1 m1 ?_ j4 ha'
    simp only [Node.delivered]
    rw [if_neg ha]
  · refine .inl ⟨a', b', ends, ?_, j2⟩
    rw [j3, List.getLast?_append_of_ne_nil _ (by simp)] at ha'
    have ha' : a₁.radioTick .arduino d.ta' (some p) = .ok a' := ha'
    refine duel_quiet wf1 m1 ?_ ha'
    simp only [Node.delivered]
    rw [if_pos c1]

/-! ### Counting -/

section
variable {K : Nat}

theorem luck_card : Fintype.card (Luck K) = K * (K * (K * K)) := by
  rw [Fintype.card_prod, Fintype.card_prod, Fintype.card_prod, Fintype.card_fin]

/-- The first draw of a device is uniform. -/
theorem luck_first {n : Nat} (hn : n ∣ K) (f : Nat → Nat) :
    (∑ ω : Luck K, f (ω.2.1.val % n)) * n = Fintype.card (Luck K) * ∑ x ∈ Finset.range n, f x := by
  have e : (∑ ω : Luck K, f (ω.2.1.val % n)) = K * (K * K) * ∑ u : Fin K, f (u.val % n) := by
    rw [Fintype.sum_prod_type]
    simp only [Fintype.sum_prod_type, Finset.sum_const, Finset.card_univ, Fintype.card_fin, smul_eq_mul]
    rw [Finset.mul_sum, Finset.mul_sum]
    refine Finset.sum_congr rfl fun u _ => ?_
    rw [Fintype.card_prod, Fintype.card_fin]
    ring
  rw [e, Nat.mul_assoc, uniform_sum hn f, luck_card]
  ring

/-- So is the second. -/
theorem luck_second {n : Nat} (hn : n ∣ K) (f : Nat → Nat) :
    (∑ ω : Luck K, f (ω.2.2.1.val % n)) * n = Fintype.card (Luck K) * ∑ x ∈ Finset.range n, f x := by
  have e : (∑ ω : Luck K, f (ω.2.2.1.val % n)) = K * (K * K) * ∑ u : Fin K, f (u.val % n) := by
    rw [Fintype.sum_prod_type]
    simp only [Fintype.sum_prod_type, Finset.sum_const, Finset.card_univ, Fintype.card_fin, smul_eq_mul]
    rw [← Finset.mul_sum]
    ring
  rw [e, Nat.mul_assoc, uniform_sum hn f, luck_card]
  ring

/-- The first draws of two devices are uniform and independent. -/
theorem luck_pair {n m : Nat} (hn : n ∣ K) (hm : m ∣ K) (g : Nat → Nat → Nat) :
    (∑ w : Luck K × Luck K, g (w.1.2.1.val % n) (w.2.2.1.val % m)) * (n * m) =
      Fintype.card (Luck K × Luck K) * ∑ x ∈ Finset.range n, ∑ y ∈ Finset.range m, g x y := by
  rw [Fintype.sum_prod_type]
  have h1 : ∀ ω : Luck K, (∑ ω' : Luck K, g (ω.2.1.val % n) (ω'.2.1.val % m)) * m =
      Fintype.card (Luck K) * ∑ y ∈ Finset.range m, g (ω.2.1.val % n) y := fun ω =>
    luck_first hm fun y => g (ω.2.1.val % n) y
  have h2 := luck_first hn fun x => ∑ y ∈ Finset.range m, g x y
  calc _ = (∑ ω : Luck K, (∑ ω' : Luck K, g (ω.2.1.val % n) (ω'.2.1.val % m)) * m) * n := by
        rw [← Finset.sum_mul]; ring
    _ = Fintype.card (Luck K) * ((∑ ω : Luck K, ∑ y ∈ Finset.range m, g (ω.2.1.val % n) y) * n) := by
        rw [Finset.sum_congr rfl fun ω _ => h1 ω, ← Finset.mul_sum]; ring
    _ = _ := by rw [h2, Fintype.card_prod (Luck K) (Luck K)]; ring

theorem count_wins (x m : Nat) : (∑ y ∈ Finset.range m, if 2 + x < 1 + y then 1 else 0) = m - (x + 2) := by
  induction m with
  | zero => simp
  | succ m ih =>
    rw [Finset.sum_range_succ, ih]
    split <;> omega

theorem count_loses (x m : Nat) :
    (∑ y ∈ Finset.range m, if ¬ 2 + x < 1 + y then 1 else 0) = m - (m - (x + 2)) := by
  induction m with
  | zero => simp
  | succ m ih =>
    rw [Finset.sum_range_succ, ih]
    split <;> omega

theorem sum_wins (n : Nat) : (∑ x ∈ Finset.range (n + 1), (n + 2 - (x + 2))) * 2 = n * (n + 1) := by
  have h : ∀ k, k ≤ n + 1 → (∑ x ∈ Finset.range k, (n + 2 - (x + 2))) * 2 + k * k = k * (2 * n + 1) := by
    intro k
    induction k with
    | zero => intro _; simp
    | succ k ih =>
      intro hk
      have := ih (by omega)
      have e : (k + 1) * (2 * n + 1) = k * (2 * n + 1) + 2 * n + 1 := by ring
      have e' : (k + 1) * (k + 1) = k * k + 2 * k + 1 := by ring
      rw [Finset.sum_range_succ, e, e']
      omega
  have h1 := h (n + 1) (Nat.le_refl _)
  have e : (n + 1) * (2 * n + 1) = n * (n + 1) + (n + 1) * (n + 1) := by ring
  omega

theorem sum_loses (n : Nat) :
    (∑ x ∈ Finset.range (n + 1), (n + 2 - (n + 2 - (x + 2)))) * 2 = (n + 4) * (n + 1) := by
  have h : (∑ x ∈ Finset.range (n + 1), (n + 2 - (n + 2 - (x + 2)))) +
      (∑ x ∈ Finset.range (n + 1), (n + 2 - (x + 2))) = (n + 1) * (n + 2) := by
    rw [← Finset.sum_add_distrib]
    rw [Finset.sum_congr rfl fun x _ => show n + 2 - (n + 2 - (x + 2)) + (n + 2 - (x + 2)) = n + 2 by omega]
    simp
  have h2 := sum_wins n
  have : (n + 1) * (n + 2) * 2 = n * (n + 1) + (n + 4) * (n + 1) := by ring
  omega

theorem sum_wins' {n m k : Nat} (hn : n = k + 1) (hm : m = k + 2) :
    (∑ x ∈ Finset.range n, ∑ y ∈ Finset.range m, if 2 + x < 1 + y then 1 else 0) * 2 = k * (k + 1) := by
  subst hn hm
  rw [Finset.sum_congr rfl fun x _ => count_wins x (k + 2)]
  exact sum_wins k

theorem sum_loses' {n m k : Nat} (hn : n = k + 1) (hm : m = k + 2) :
    (∑ x ∈ Finset.range n, ∑ y ∈ Finset.range m, if ¬ 2 + x < 1 + y then 1 else 0) * 2 = (k + 4) * (k + 1) := by
  subst hn hm
  rw [Finset.sum_congr rfl fun x _ => count_loses x (k + 2)]
  exact sum_loses k

end

end Firefly
