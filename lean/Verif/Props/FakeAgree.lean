import Verif.Lemmas.FakeHours
import Verif.Props.FakeElection

/-! # Agreement on the effect in the network of the integration tests (C147) -/

namespace Firefly.Props
open Spec FakeNet

section
variable {n : Nat} {net : Nat → FakeNet n} {d : Nat → U32} {N : Nat}

/-- When the master chooses. -/
theorem chooses_at (c : Course net d N) (hn : n ≤ 99) {k₀ : Nat} (hk : k₀ + n ≤ N)
    (hm : (net k₀).getNumMasters ≠ 0) (hm' : ∀ j < k₀, (net j).getNumMasters = 0) {A}
    (st : ∀ j, k₀ + n + j ≤ N → Stable (net (k₀ + n + j)) A (net (k₀ + n + j)).now.toNat) {j : Nat}
    (hj : k₀ + n + j ≤ N) :
    (net (k₀ + n + j)).now.toNat = (net (k₀ + n)).now.toNat + j ∧
    (∃ m, ((net (k₀ + n + j)).node A).timers.changeEffect.toNat + 1 = 60001 * (m + 1) ∧
      60001 * m ≤ (net (k₀ + n + j)).now.toNat ∧
      (net (k₀ + n + j)).now.toNat < 60001 * (m + 1)) ∧
    (k₀ + n + j < N →
      (Chooses net A (k₀ + n + j + 1) ↔ 60001 ∣ (net (k₀ + n + j + 1)).now.toNat)) := by
  obtain ⟨h50, early⟩ := c.first hn hk hm hm'
  have step : ∀ j, k₀ + n + j < N →
      (∃ m, ((net (k₀ + n + j)).node A).timers.changeEffect.toNat + 1 = 60001 * (m + 1) ∧
        60001 * m ≤ (net (k₀ + n + j)).now.toNat ∧
        (net (k₀ + n + j)).now.toNat < 60001 * (m + 1)) →
      (Chooses net A (k₀ + n + j + 1) ↔ 60001 ∣ (net (k₀ + n + j + 1)).now.toNat) := by
    intro j hj ⟨m, h1, h2, h3⟩
    obtain ⟨e, _⟩ := c.beat hn hj (st j (by omega))
    obtain ⟨_, h5, _⟩ := c.chooses hn hj (st j (by omega))
    rw [h5, e]
    constructor
    · intro h; exact ⟨m + 1, by omega⟩
    · rintro ⟨q, hq⟩
      have : q = m + 1 := by omega
      subst this; omega
  suffices (net (k₀ + n + j)).now.toNat = (net (k₀ + n)).now.toNat + j ∧
      (∃ m, ((net (k₀ + n + j)).node A).timers.changeEffect.toNat + 1 = 60001 * (m + 1) ∧
        60001 * m ≤ (net (k₀ + n + j)).now.toNat ∧
        (net (k₀ + n + j)).now.toNat < 60001 * (m + 1)) from
    ⟨this.1, this.2, fun h => step j h this.2⟩
  induction j with
  | zero =>
    have hA : ((net (k₀ + n)).node A).state = .master := by
      have := (st 0 (by omega)).only A
      rwa [if_pos rfl] at this
    have := ((early.node A).armed hA).1
    exact ⟨rfl, 0, by show ((net (k₀ + n)).node A).timers.changeEffect.toNat + 1 = _; omega,
      by omega, by show (net (k₀ + n)).now.toNat < _; omega⟩
  | succ j ih =>
    obtain ⟨i0, i1⟩ := ih (by omega)
    obtain ⟨e, _⟩ := c.beat hn (k := k₀ + n + j) (by omega) (st j (by omega))
    obtain ⟨h4, h5, h6, h7⟩ := c.chooses hn (k := k₀ + n + j) (by omega) (st j (by omega))
    have hs := step j (by omega) i1
    obtain ⟨m, h1, h2, h3⟩ := i1
    rw [← Nat.add_assoc]
    refine ⟨by omega, ?_⟩
    by_cases hc : Chooses net A (k₀ + n + j + 1)
    · have := h6 hc
      have := h5.1 hc
      exact ⟨m + 1, by omega, by omega, by omega⟩
    · obtain ⟨_, _, h⟩ := h7 hc
      rw [h]
      have : (net (k₀ + n + j)).now.toNat ≠ _ := fun e => hc (h5.2 e)
      exact ⟨m, by omega, by omega, by omega⟩

/-! ## C147: the devices follow the master -/

/-- C147: the master changes its instruction at most when the clock reaches a multiple of 60001. -/
theorem network_changes_rarely (c : Course net d N) (hn : n ≤ 99) {k₀ : Nat}
    (hm : (net k₀).getNumMasters ≠ 0) (hm' : ∀ j < k₀, (net j).getNumMasters = 0) {A k}
    (hk : k₀ + n ≤ k) (hkN : k < N) (hA : OnlyMaster (net k) A)
    (ht : ¬ 60001 ∣ (net (k + 1)).now.toNat) :
    SameOrder ((net (k + 1)).node A).getSetEffect ((net k).node A).getSetEffect ∧
      ((net (k + 1)).node A).getEffectIndex = ((net k).node A).getEffectIndex := by
  obtain ⟨B, st⟩ := c.stable hn (k₀ := k₀) (by omega) hm hm'
  obtain ⟨j, rfl⟩ : ∃ j, k = k₀ + n + j := ⟨k - (k₀ + n), by omega⟩
  have hAB : A = B := by
    apply Classical.byContradiction
    intro hne
    have h1 := hA A
    have h2 := (st j (by omega)).only A
    rw [if_pos rfl] at h1
    rw [if_neg hne, h1] at h2
    cases h2
  subst hAB
  obtain ⟨_, _, h⟩ := chooses_at c hn (by omega) hm hm' st (j := j) (by omega)
  obtain ⟨_, _, _, h7⟩ := c.chooses hn hkN (st j (by omega))
  have := h7 fun hc => ht ((h hkN).1 hc)
  exact ⟨this.1, this.2.1⟩

/-- C147: once the master has followed its instruction for `6 n + 2004` ms, every device follows
it: the same effect, delay and palette. -/
theorem network_follows_master (c : Course net d N) (hn : n ≤ 99) {k₀ : Nat}
    (hm : (net k₀).getNumMasters ≠ 0) (hm' : ∀ j < k₀, (net j).getNumMasters = 0) {A k}
    (hk : k₀ + 7 * n + 2005 ≤ k) (hkN : k ≤ N) (hA : OnlyMaster (net k) A)
    (ht : (net k).now.toNat < 60001 ∨ 6 * n + 2004 ≤ (net k).now.toNat % 60001) (i : Fin n) :
    SameOrder ((net k).node i).getSetEffect ((net k).node A).getSetEffect ∧
      (i ≠ A ∨ 60001 ≤ (net k).now.toNat →
        ((net k).node i).getEffectIndex = ((net k).node A).getSetEffect.data[0]) := by
  obtain ⟨B, st⟩ := c.stable hn (k₀ := k₀) (by omega) hm hm'
  obtain ⟨j, rfl⟩ : ∃ j, k = k₀ + n + 1 + j := ⟨k - (k₀ + n + 1), by omega⟩
  have hj6 : 6 * n + 2004 ≤ j := by omega
  have hAB : A = B := by
    apply Classical.byContradiction
    intro hne
    have h1 := hA A
    have h2 := (st (1 + j) (by omega)).only A
    rw [← Nat.add_assoc] at h2
    rw [if_pos rfl] at h1
    rw [if_neg hne, h1] at h2
    cases h2
  subst hAB
  obtain ⟨e, x, v, tl, hx, hi⟩ := c.tell hn st (j := j) (by omega)
  obtain ⟨h50, _⟩ := c.first hn (by omega) hm hm'
  have ch : ∀ y, y ≤ j → (Chooses net A (k₀ + n + 1 + y) ↔ 60001 ∣ (net (k₀ + n)).now.toNat + 1 + y) := by
    intro y hy
    obtain ⟨_, _, h⟩ := chooses_at c hn (by omega) hm hm' st (j := y) (by omega)
    obtain ⟨e, _⟩ := chooses_at c hn (by omega) hm hm' st (j := 1 + y) (by omega)
    have h := h (by omega)
    rw [show k₀ + n + y + 1 = k₀ + n + 1 + y by omega] at h
    rw [show k₀ + n + (1 + y) = k₀ + n + 1 + y by omega] at e
    rw [h, e, Nat.add_assoc]
  have late : x + (6 * n + 2004) ≤ j := by
    rcases hx with hx | ⟨h1, h2⟩
    · rw [hx, Nat.zero_add]; exact hj6
    · obtain ⟨m, h⟩ := (ch x h1).1 h2
      apply Classical.byContradiction
      intro hlt
      rcases ht with ht | ht
      · omega
      · omega
  have sy : Synced (net (k₀ + n + 1 + j)) A := by
    rw [e] at tl
    cases tl.reach with
    | synced _ s => exact s
    | waiting h _ =>
      obtain ⟨_, _, _, _, _, _, s⟩ := st (1 + j) (by omega)
      have := s.onTime.bcast
      rw [← Nat.add_assoc] at this
      omega
    | firm q e' h hq ty hl h1 h2 h3 => omega
    | slot q h hq hu ty ht => omega
  by_cases hiA : i = A
  · subst hiA
    refine ⟨.refl _, fun h => ?_⟩
    rcases h with h | h
    · exact absurd rfl h
    · refine (hi ⟨60001 - ((net (k₀ + n)).now.toNat + 1), by omega, by omega, ?_⟩).symm
      exact (ch _ (by omega)).2 ⟨1, by omega⟩
  · exact ⟨(sy i hiA).1, fun _ => (sy i hiA).2⟩

/-- C147: from the first change on, `GetEffectIndex` returns the same on all devices, except in the
first `6 n + 2004` ms after a change. -/
theorem network_same_index (c : Course net d N) (hn : n ≤ 99) {k₀ : Nat}
    (hm : (net k₀).getNumMasters ≠ 0) (hm' : ∀ j < k₀, (net j).getNumMasters = 0) {A k}
    (hk : k₀ + 7 * n + 2005 ≤ k) (hkN : k ≤ N) (hA : OnlyMaster (net k) A)
    (h1 : 60001 ≤ (net k).now.toNat) (ht : 6 * n + 2004 ≤ (net k).now.toNat % 60001) (i j : Fin n) :
    ((net k).node i).getEffectIndex = ((net k).node j).getEffectIndex := by
  have := fun i => (network_follows_master c hn hm hm' hk hkN hA (.inr ht) i).2 (.inr h1)
  rw [this i, this j]

/-- C147 (refuted before the first change): all follow effect 1, but the master's `GetEffectIndex`
returns 0. -/
theorem network_index_differs (c : Course net d N) (hn : n ≤ 99) {k₀ : Nat}
    (hm : (net k₀).getNumMasters ≠ 0) (hm' : ∀ j < k₀, (net j).getNumMasters = 0) {A k}
    (hk : k₀ + 7 * n + 2005 ≤ k) (hkN : k ≤ N) (hA : OnlyMaster (net k) A)
    (ht : (net k).now.toNat < 60001) (i : Fin n) :
    ((net k).node i).getSetEffect.data[0] = 1 ∧
      ((net k).node i).getEffectIndex = if i = A then 0 else 1 := by
  obtain ⟨h1, h2⟩ := network_follows_master c hn hm hm' hk hkN hA (.inl ht) i
  obtain ⟨h50, early⟩ := c.first hn (k₀ := k₀) (by omega) hm hm'
  obtain ⟨B, st⟩ := c.stable hn (k₀ := k₀) (by omega) hm hm'
  have key : ∀ j, k₀ + n + j ≤ k →
      (net (k₀ + n + j)).now.toNat = (net (k₀ + n)).now.toNat + j ∧
      ((net (k₀ + n + j)).node B).getSetEffect.data[0] = 1 ∧
      ((net (k₀ + n + j)).node B).getEffectIndex = 0 := by
    intro j
    have hnow : ∀ j, k₀ + n + j ≤ k → _ := fun j hj =>
      (chooses_at c hn (by omega) hm hm' st (j := j) (by omega)).1
    induction j with
    | zero => exact fun _ => ⟨rfl, (early.node B).effect, (early.node B).index⟩
    | succ j ih =>
      intro hj
      obtain ⟨e, e1, e2⟩ := ih (by omega)
      have e' := hnow (j + 1) hj
      have ek := hnow (k - (k₀ + n)) (by omega)
      rw [show k₀ + n + (k - (k₀ + n)) = k by omega] at ek
      have a := c.able (k := k₀ + n + j) (by omega)
      have hlen : ((net (k₀ + n + j)).node B).setEffectPacket.len = 3 :=
        (Node.regular_effect (a.node B).regular (a.node B).instr).1
      obtain ⟨g1, g2⟩ := network_changes_rarely c hn hm hm' (k := k₀ + n + j) (by omega)
        (by omega) (st j (by omega)).only (by
          rw [show k₀ + n + j + 1 = k₀ + n + (j + 1) by omega, e']
          omega)
      refine ⟨e', ?_, by rw [← Nat.add_assoc, g2, e2]⟩
      rw [← Nat.add_assoc]
      exact (g1.used 0 (by decide) (by rw [g1.len]; show 0 < (((net (k₀ + n + j)).node B).setEffectPacket.len).toNat; rw [hlen]; decide)).trans e1
  obtain ⟨_, k1, k2⟩ := key (k - (k₀ + n)) (by omega)
  have hst := st (k - (k₀ + n)) (by omega)
  rw [show k₀ + n + (k - (k₀ + n)) = k by omega] at k1 k2 hst
  have hAB : A = B := by
    apply Classical.byContradiction
    intro hne
    have h1 := hA A
    have h2 := hst.only A
    rw [if_pos rfl] at h1
    rw [if_neg hne, h1] at h2
    cases h2
  subst hAB
  have a := c.able (k := k) hkN
  have hlen : ((net k).node A).setEffectPacket.len = 3 :=
    (Node.regular_effect (a.node A).regular (a.node A).instr).1
  refine ⟨(h1.used 0 (by decide) (by rw [h1.len]; show 0 < (((net k).node A).setEffectPacket.len).toNat; rw [hlen]; decide)).trans k1, ?_⟩
  by_cases hi : i = A
  · rw [if_pos hi, hi]; exact k2
  · rw [if_neg hi, h2 (.inl hi)]; exact k1

end

/-! ## Courses -/

/-- C147: the hypotheses can be met: every network of up to 99 devices has a course of five and a
half hours in which its first device is the only one to become master. -/
theorem long_courses_exist {n : Nat} (h0 : 0 < n) (hn : n ≤ 99) :
    ∃ (net : Nat → FakeNet n) (d : Nat → U32), Course net d 20000000 ∧
      (net 0).getNumMasters = 0 ∧ ∀ k, 1 ≤ k → k ≤ 20000000 →
        (net k).now.toNat = 5001 + k ∧ (net k).getNumMasters = 1 ∧ OnlyMaster (net k) ⟨0, h0⟩ := by
  obtain ⟨net₀, h⟩ := FakeNet.hours_exist h0 hn
  have c := (h 19999999 (by decide)).1
  refine ⟨_, _, c, ?_, fun k h1 h2 => ?_⟩
  · refine FakeNet.getNumMasters_zero.2 fun i => ?_
    rw [((c.start.idle hn).silent i).slave]; decide
  · obtain ⟨_, g1, g2⟩ := h (k - 1) (by omega)
    rw [show k - 1 + 1 = k by omega] at g1 g2
    exact ⟨by omega, FakeNet.getNumMasters_one g2, g2⟩

/-- A concrete case of C147: the five devices of the integration tests.  At 8.001 s all follow effect
1, but the first one, which is master, says 0; from the first change, at 60.001 s, the first one
follows what it has chosen until 120.002 s, and at 70.001 s all do. -/
example : ∃ (net : Nat → FakeNet 5) (d : Nat → U32), Course net d 200000 ∧
    (∀ i, ((net 3000).node i).getSetEffect.data[0] = 1 ∧
      ((net 3000).node i).getEffectIndex = if i = 0 then 0 else 1) ∧
    (∀ k, 55000 ≤ k → k < 115000 →
      SameOrder ((net (k + 1)).node 0).getSetEffect ((net k).node 0).getSetEffect) ∧
    (∀ i, SameOrder ((net 65000).node i).getSetEffect ((net 65000).node 0).getSetEffect) ∧
    ∀ i j, ((net 65000).node i).getEffectIndex = ((net 65000).node j).getEffectIndex := by
  obtain ⟨net, d, c, h0, h⟩ := long_courses_exist (n := 5) (by decide) (by decide)
  have c : Course net d 200000 := ⟨c.start, fun k hk => c.step k (by omega),
    fun k hk => c.fresh k (by omega), fun k hk => c.early k (by omega),
    fun k hk => c.pace k (by omega), fun k hk => c.clock k (by omega)⟩
  have hm : (net 1).getNumMasters ≠ 0 := by rw [(h 1 (by decide) (by decide)).2.1]; decide
  have hm' : ∀ j < 1, (net j).getNumMasters = 0 := fun j hj => by
    obtain rfl : j = 0 := by omega
    exact h0
  refine ⟨net, d, c, fun i => ?_, fun k h1 h2 => ?_, fun i => ?_, fun i j => ?_⟩
  · exact network_index_differs c (by decide) hm hm' (by decide) (by decide)
      (h 3000 (by decide) (by decide)).2.2 (by rw [(h 3000 (by decide) (by decide)).1]; decide) i
  · refine (network_changes_rarely c (by decide) hm hm' (by omega) (by omega)
      (h k (by omega) (by omega)).2.2 ?_).1
    rw [(h (k + 1) (by omega) (by omega)).1]
    omega
  · exact (network_follows_master c (by decide) hm hm' (by decide) (by decide)
      (h 65000 (by decide) (by decide)).2.2
      (.inr (by rw [(h 65000 (by decide) (by decide)).1]; decide)) i).1
  · exact network_same_index c (by decide) hm hm' (by decide) (by decide)
      (h 65000 (by decide) (by decide)).2.2 (by rw [(h 65000 (by decide) (by decide)).1]; decide)
      (by rw [(h 65000 (by decide) (by decide)).1]; decide) i j

end Firefly.Props
