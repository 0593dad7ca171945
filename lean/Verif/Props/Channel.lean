import Verif.Spec.Channel
import Verif.Props.Traffic
import Verif.Props.Stability
import Verif.Props.Follow
import Mathlib.Algebra.Order.BigOperators.Group.Finset

/-! # How busy the channel is (C178) -/

namespace Firefly.Props
open Spec

/-- How many of the packets have a payload. -/
def loud (w : List Entry) : Nat := (w.flatMap Entry.transmitted).countP fun q => decide (1 ≤ q.len.toNat)

theorem loud_cons (e : Entry) (w : List Entry) :
    loud (e :: w) = (Entry.transmitted e).countP (fun q => decide (1 ≤ q.len.toNat)) + loud w := by
  rw [loud, List.flatMap_cons, List.countP_append, loud]

theorem loud_traffic : ∀ w : List Entry, loud w ≤ traffic w
  | [] => Nat.le_refl _
  | e :: w => by
    rw [loud_cons, traffic_cons]
    exact Nat.add_le_add List.countP_le_length (loud_traffic w)

theorem tally_heard : ∀ w : List Entry, tally HearsNew w = (w.filterMap Entry.heard).length
  | [] => rfl
  | e :: w => by
    have ih := tally_heard w
    cases h : Entry.heard e with
    | none =>
      rw [tally_neg (fun ⟨p, k⟩ => by rw [h] at k; cases k), List.filterMap_cons_none h, ih]
    | some p => rw [tally_pos ⟨p, h⟩, List.filterMap_cons_some h, ih, List.length_cons]

/-- A slave transmits a payload only when its program requests an effect. -/
theorem slave_loud {t₀ h} : ∀ {w s}, Run .arduino t₀ (w ++ h) s → Deaf (w ++ h) →
    (∀ e ∈ w, e.pre.state = .slave ∧ e.post.state = .slave) → loud w ≤ tally Requested w
  | [], _, _, _, _ => Nat.le_refl _
  | ⟨pre, op, post⟩ :: w, s, r, hd, hs => by
    obtain ⟨r', hst, _⟩ := Run.cons_inv (show Run .arduino t₀ (⟨pre, op, post⟩ :: (w ++ h)) s from r)
    simp only at r' hst
    have ih := slave_loud r' (fun e he => hd e (List.mem_cons_of_mem _ he))
      fun e he => hs e (List.mem_cons_of_mem _ he)
    have hs0 := hs _ List.mem_cons_self
    simp only at hs0
    rw [loud_cons]
    by_cases hq : Requested ⟨pre, op, post⟩
    · rw [tally_pos hq]
      have : (Entry.transmitted ⟨pre, op, post⟩).countP (fun q => decide (1 ≤ q.len.toNat)) ≤ 1 :=
        Nat.le_trans List.countP_le_length (Nat.le_of_eq (request_sends r'.wf hst hq).1)
      omega
    · rw [tally_neg hq]
      have : (Entry.transmitted ⟨pre, op, post⟩).countP (fun q => decide (1 ≤ q.len.toNat)) = 0 := by
        rw [List.countP_eq_zero]
        intro q hm
        cases hh : Entry.heard ⟨pre, op, post⟩ with
        | some p =>
          have := heard_transmits_empty r'.wf hst hh (hd _ (List.mem_cons_self) p hh) hm
          rw [this]; decide
        | none =>
          exfalso
          have key := slave_traffic (w := [⟨pre, op, post⟩]) (h := w ++ h) (s := s)
            (show Run .arduino t₀ (⟨pre, op, post⟩ :: (w ++ h)) s from r)
            (fun e he => by rw [List.mem_singleton.1 he]; exact hs0)
          rw [tally_neg hq, tally_neg (fun ⟨p, k⟩ => by rw [hh] at k; cases k), tally_nil, tally_nil, traffic_cons] at key
          have : (Entry.transmitted ⟨pre, op, post⟩).length = 0 := by omega
          rw [List.length_eq_zero_iff.1 this] at hm
          cases hm
      omega

theorem forall₂_source {α β} {R : α → β → Prop} : ∀ {l : List α} {l' : List β}, List.Forall₂ R l l' →
    ∀ {y}, y ∈ l' → ∃ x ∈ l, R x y
  | _, _, .nil, _, h => absurd h List.not_mem_nil
  | _, _, .cons h t, y, hy => by
    rcases List.mem_cons.1 hy with rfl | hy
    · exact ⟨_, List.mem_cons_self, h⟩
    · obtain ⟨x, hx, k⟩ := forall₂_source t hy
      exact ⟨x, List.mem_cons_of_mem _ hx, k⟩

/-- A device hears at most as many packets as the others transmitted with a payload. -/
theorem once_each {n nbrs} {net₀ net : HwNet n} {i : Fin n} (h : OnceEach nbrs net₀ net i) :
    tally HearsNew (since net₀ net i) ≤ ∑ j, if i ∈ nbrs j then loud (since net₀ net j) else 0 := by
  obtain ⟨src, hsub, hf⟩ := h
  rw [tally_heard, hf.length_eq]
  have hall : ∀ q ∈ src, decide (1 ≤ q.len.toNat) = true := by
    intro q hq
    obtain ⟨p, _, f, h1, h2⟩ : ∃ p ∈ (since net₀ net i).filterMap Entry.heard,
        ∃ f, Hw.sendPacket q = .ok f ∧ Decodes f p := by
      exact forall₂_source hf hq
    exact decide_eq_true (decodes_sent h1 h2).1
  rw [← List.countP_eq_length.2 hall]
  refine Nat.le_trans (hsub.countP_le _) ?_
  rw [inRange, List.countP_flatMap, Fin.sum_univ_def]
  refine Nat.le_of_eq (congrArg List.sum (List.map_congr_left fun j _ => ?_))
  simp only [Function.comp]
  split
  · rfl
  · rfl

theorem sum_slaves {n} (f : Fin n → Nat) (m i : Fin n) (A : Nat) (g : Fin n → Nat)
    (hg : ∀ j, g j ≤ if j = i then 0 else if j = m then A else f j) :
    (∑ j, g j) + f i ≤ A + ∑ j, f j := by
  have h : ∀ j, g j + (if i = j then f i else 0) ≤ (if m = j then A else 0) + f j := by
    intro j
    have := hg j
    by_cases h1 : j = i
    · subst h1
      simp only [if_true] at this ⊢
      omega
    · rw [if_neg h1] at this
      rw [if_neg (Ne.symm h1)]
      by_cases h2 : j = m
      · subst h2
        simp only [if_true] at this ⊢
        omega
      · rw [if_neg h2] at this
        omega
  have key := Finset.sum_le_sum (s := Finset.univ) fun j _ => h j
  rw [Finset.sum_add_distrib, Finset.sum_add_distrib, Finset.sum_ite_eq, Finset.sum_ite_eq, if_pos (Finset.mem_univ _),
    if_pos (Finset.mem_univ _)] at key
  exact key

theorem sum_slaves_master {n} (f : Fin n → Nat) (m : Fin n) (g : Fin n → Nat)
    (hg : ∀ j, g j ≤ if j = m then 0 else f j) : (∑ j, g j) + f m ≤ ∑ j, f j := by
  have := sum_slaves f m m 0 g fun j => by
    have := hg j
    split at this <;> simp_all
  omega

/-- **C178.** Of `n` devices on the real radio, `m` is the only master and what was sent earlier is no longer
received.  As long as all others keep hearing a master, and if no transmission is received twice by a device, then
while `d` ms pass at `m`, the devices together transmit at most `n` times as many packets as `m` has reason to: a
heartbeat per second, a repetition per two seconds, a choice per minute, one more of each, and three for each effect
that the program of any device requests. -/
theorem channel_bound {n nbrs} {net₀ net : HwNet n} (hr : HwNet.Reach nbrs net₀) {m : Fin n}
    (hself : ∀ i, i ∉ nbrs i) (hm : HwNet.SoleMaster net₀ m)
    (hs : HwNet.Steps nbrs { net₀ with air := [] } net)
    (hreg : ∀ i, i ≠ m → KeepsHearing net₀ net i) (once : ∀ i, OnceEach nbrs net₀ net i)
    {t₀ : U32} (run : Firefly.Run .arduino t₀ (net.hist m) (net.node m)) (clock : Clock t₀ (net.hist m)) {d : Nat}
    (span : ∀ e ∈ since net₀ net m, ∀ e' ∈ since net₀ net m, (Entry.time e).toNat ≤ (Entry.time e').toNat + d) :
    channel net₀ net ≤
      n * ((d / 1000 + 1) + (d / 2000 + 1) + (d / 60000 + 1) + 3 * requests net₀ net) := by
  have st := settled hr (hself m) hm hs hreg
  have inv := hwInv_reach (reach_cleared hr hs)
  have deaf := fun i => inv.deaf i
  have proper := fun i => inv.proper i
  simp only at deaf proper
  have slave : ∀ i, i ≠ m → ∀ e ∈ since net₀ net i, e.pre.state = .slave ∧ e.post.state = .slave := by
    intro i hi e he
    have := st.roles i e he
    rw [roleIn, if_neg hi] at this
    exact this
  have runs : ∀ i, i ≠ m → ∃ t, Firefly.Run .arduino t (since net₀ net i ++ net₀.hist i) (net.node i) := by
    intro i hi
    obtain ⟨t, r, _⟩ := hreg i hi
    exact ⟨t, by rw [← st.hist i]; exact r⟩
  have hloud : ∀ i, i ≠ m → loud (since net₀ net i) ≤ tally Requested (since net₀ net i) := by
    intro i hi
    obtain ⟨t, r⟩ := runs i hi
    exact slave_loud r (by rw [← st.hist i]; exact deaf i) (slave i hi)
  -- the master
  rw [st.hist m] at run clock
  have hbound := traffic_bound run clock (by rw [← st.hist m]; exact proper m) span
  have hnp : tally Entry.Promoted (since net₀ net m) = 0 := by
    rw [tally, List.countP_eq_zero]
    intro e he
    have h1 := (st.roles m e he).1
    rw [roleIn, if_pos rfl] at h1
    have : ¬ Entry.Promoted e := fun hp => by
      have h2 := hp.1
      simp only [Node.getCurrentState] at h2
      rw [h1] at h2; cases h2
    simpa using this
  have hmh : tally MasterHears (since net₀ net m) ≤ tally HearsNew (since net₀ net m) :=
    tally_of_imp fun e _ he => by obtain ⟨_, q, hq, _⟩ := he; exact ⟨q, hq⟩
  have hheard : tally HearsNew (since net₀ net m) + tally Requested (since net₀ net m) ≤ requests net₀ net := by
    refine Nat.le_trans (Nat.add_le_add_right (once_each (once m)) _) ?_
    refine sum_slaves_master (fun j => tally Requested (since net₀ net j)) m _ fun j => ?_
    by_cases hj : j = m
    · subst hj
      rw [if_neg (hself _), if_pos rfl]
    · rw [if_neg hj]
      split
      · exact hloud j hj
      · exact Nat.zero_le _
  have hmaster : traffic (since net₀ net m) ≤
      2 * requests net₀ net + ((d / 1000 + 1) + (d / 2000 + 1) + (d / 60000 + 1)) := by omega
  -- everybody
  have each : ∀ i, traffic (since net₀ net i) ≤
      (d / 1000 + 1) + (d / 2000 + 1) + (d / 60000 + 1) + 3 * requests net₀ net := by
    intro i
    by_cases hi : i = m
    · subst hi; omega
    · obtain ⟨t, r⟩ := runs i hi
      rw [slave_traffic r (slave i hi)]
      have := sum_slaves (fun j => tally Requested (since net₀ net j)) m i
        (2 * requests net₀ net + ((d / 1000 + 1) + (d / 2000 + 1) + (d / 60000 + 1)))
        (fun j => if i ∈ nbrs j then loud (since net₀ net j) else 0) (fun j => by
          by_cases hj : j = i
          · subst hj
            rw [if_neg (hself _), if_pos rfl]
          · rw [if_neg hj]
            by_cases hjm : j = m
            · rw [if_pos hjm]
              split
              · subst hjm; exact Nat.le_trans (loud_traffic _) hmaster
              · exact Nat.zero_le _
            · rw [if_neg hjm]
              split
              · exact hloud j hjm
              · exact Nat.zero_le _)
      have h2 := once_each (once i)
      have h3 : ∑ j, tally Requested (since net₀ net j) = requests net₀ net := rfl
      omega
  unfold channel
  refine Nat.le_trans (Finset.sum_le_card_nsmul Finset.univ _ _ fun i _ => each i) ?_
  rw [Finset.card_univ, Fintype.card_fin, smul_eq_mul]

namespace HwDemo

/-- The `k`-th packet that device 1 transmitted, as device 0 receives it. -/
theorem once_b₄ (i : Fin 3) : OnceEach nbrs a₂ b₄ i := by
  have h : ∀ i : Fin 3, (match (since a₂ b₄ i).filterMap Entry.heard, inRange nbrs a₂ b₄ i with
    | [], _ => true
    | [p, p'], [q, q'] =>
      (match Hw.sendPacket q with | .ok f => decide (decodes f p) | .error _ => false) &&
      (match Hw.sendPacket q' with | .ok f => decide (decodes f p') | .error _ => false)
    | _, _ => false) = true := by decide +kernel
  have hi := h i
  unfold OnceEach
  split at hi
  · rename_i h1
    rw [h1]
    exact ⟨[], List.nil_subperm, .nil⟩
  · rename_i p p' q q' h1 h2
    rw [h1, h2]
    rw [Bool.and_eq_true] at hi
    obtain ⟨k1, k2⟩ := hi
    refine ⟨[q, q'], List.Subperm.refl _, .cons ?_ (.cons ?_ .nil)⟩
    · split at k1
      · exact ⟨_, by assumption, decodes_ok (of_decide_eq_true k1)⟩
      · cases k1
    · split at k2
      · exact ⟨_, by assumption, decodes_ok (of_decide_eq_true k2)⟩
      · cases k2
  · cases hi

end HwDemo

open HwDemo in
/-- The hypotheses of `channel_bound` are met: of three devices in a row the middle one is master; within 950 ms it
sends a heartbeat and a repetition, and the first device hears both and passes them on: four packets. -/
theorem channel_demo : HwNet.Reach nbrs a₂ ∧ (∀ i, i ∉ nbrs i) ∧ HwNet.SoleMaster a₂ 1 ∧
    HwNet.Steps nbrs { a₂ with air := [] } b₄ ∧ (∀ i, i ≠ 1 → KeepsHearing a₂ b₄ i) ∧
    (∀ i, OnceEach nbrs a₂ b₄ i) ∧ Firefly.Run .arduino 0 (b₄.hist 1) (b₄.node 1) ∧ Clock 0 (b₄.hist 1) ∧
    (∀ e ∈ since a₂ b₄ 1, ∀ e' ∈ since a₂ b₄ 1, (Entry.time e).toNat ≤ (Entry.time e').toNat + 950) ∧
    channel a₂ b₄ = 4 := by
  refine ⟨a₂_reach, by decide, a₂_master, b₄_steps, b₄_hearing, once_b₄, b₄_runs 1, clock_of_check (by decide +kernel),
    ?_, ?_⟩
  · have : ((since a₂ b₄ 1).all fun e => (since a₂ b₄ 1).all fun e' =>
        decide ((Entry.time e).toNat ≤ (Entry.time e').toNat + 950)) = true := by decide +kernel
    intro e he e' he'
    have := List.all_eq_true.1 (List.all_eq_true.1 this e he) e' he'
    exact of_decide_eq_true this
  · rw [channel, Fin.sum_univ_three]
    decide +kernel

end Firefly.Props
