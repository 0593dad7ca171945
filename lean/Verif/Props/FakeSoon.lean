import Verif.Lemmas.FakeHours
import Verif.Lemmas.FakeTimes
import Verif.Props.FakeSafe

/-! # How soon the devices of the test network follow a change (C152) -/

namespace Firefly.Props
open Spec FakeNet

section
variable {n : Nat} {net : Nat → FakeNet n} {d : Nat → U32} {N : Nat}

theorem soon_index (c : Course net d N) (hn : n ≤ 99) {k₀ : Nat}
    (hm : (net k₀).getNumMasters ≠ 0) (hm' : ∀ j < k₀, (net j).getNumMasters = 0) {A k}
    (hk : k₀ + n ≤ k) (hA : OnlyMaster (net k) A) (ht : 60001 ∣ (net (k + 1)).now.toNat)
    {x : Nat} (hx : x = n + 1 ∨ (x = 1 ∧ (net k).packet = none))
    (hs : x = 1 ∨ ((net (k + 1 + x)).node A).sent = ((net (k + 1)).node A).sent)
    {j : Nat} (hj : x ≤ j) (hj' : j ≤ 60000) (hjN : k + 1 + j ≤ N) (i : Fin n) :
    OnlyMaster (net (k + 1 + j)) A ∧
    ((net (k + 1 + j)).node A).getEffectIndex = ((net (k + 1)).node A).getEffectIndex ∧
    ((net (k + 1 + j)).node i).getEffectIndex = ((net (k + 1)).node A).getEffectIndex ∧
      SameOrder ((net (k + 1 + j)).node i).getSetEffect ((net (k + 1 + j)).node A).getSetEffect := by
  obtain ⟨B, st⟩ := c.stable hn (k₀ := k₀) (by omega) hm hm'
  have st' : ∀ j, k₀ + n ≤ j → j ≤ N → Stable (net j) B (net j).now.toNat := by
    intro j h1 h2
    have := st (j - (k₀ + n)) (by omega)
    rwa [show k₀ + n + (j - (k₀ + n)) = j by omega] at this
  have hAB : A = B := by
    apply Classical.byContradiction
    intro hne
    have h1 := hA A
    have h2 := (st' k (by omega) (by omega)).only A
    rw [if_pos rfl] at h1
    rw [if_neg hne, h1] at h2
    cases h2
  subst hAB
  have ch : ∀ y, y ≤ j → (net (k + 1 + y)).now.toNat = (net (k + 1)).now.toNat + y ∧
      (Chooses net A (k + 1 + y) ↔ 60001 ∣ (net (k + 1)).now.toNat + y) := by
    intro y hy
    obtain ⟨e1, _, h⟩ := chooses_at c hn (by omega) hm hm' st (j := k + y - (k₀ + n)) (by omega)
    obtain ⟨e2, _⟩ := chooses_at c hn (by omega) hm hm' st (j := k + 1 - (k₀ + n)) (by omega)
    obtain ⟨e3, _⟩ := chooses_at c hn (by omega) hm hm' st (j := k + 1 + y - (k₀ + n)) (by omega)
    have h := h (by omega)
    rw [show k₀ + n + (k + y - (k₀ + n)) = k + y by omega] at h e1
    rw [show k₀ + n + (k + 1 - (k₀ + n)) = k + 1 by omega] at e2
    rw [show k₀ + n + (k + 1 + y - (k₀ + n)) = k + 1 + y by omega] at e3
    rw [show k + y + 1 = k + 1 + y by omega] at h
    have e : (net (k + 1 + y)).now.toNat = (net (k + 1)).now.toNat + y := by omega
    rw [e] at h
    exact ⟨e, h⟩
  have hch : Chooses net A (k + 1) := (ch 0 (by omega)).2.2 (by simpa using ht)
  have hno : ∀ y, 0 < y → y ≤ j → ¬ Chooses net A (k + 1 + y) := by
    intro y h1 h2 h
    have := (ch y h2).2.1 h
    omega
  have sy := c.soon hn (fun j h1 h2 => st' j (by omega) h2) (by omega : k < N) hch hx hs hj hjN hno
  have keep : ∀ y, y ≤ j → ((net (k + 1 + y)).node A).setEffectPacket.data[0] =
        ((net (k + 1 + y)).node A).effectIndex ∧
      ((net (k + 1 + y)).node A).effectIndex = ((net (k + 1)).node A).effectIndex := by
    intro y
    induction y with
    | zero =>
      intro _
      obtain ⟨_, m, b, _⟩ := c.beat hn (k := k) (by omega) (st' k (by omega) (by omega))
      rcases b.keeps with ⟨_, _, h⟩ | ⟨h, _⟩
      · exact absurd h hch
      · exact ⟨h, rfl⟩
    | succ y ih =>
      intro hy
      obtain ⟨i1, i2⟩ := ih (by omega)
      obtain ⟨_, _, _, h⟩ := c.chooses hn (k := k + 1 + y) (by omega) (st' _ (by omega) (by omega))
      obtain ⟨h1, h2, _⟩ := h (hno (y + 1) (by omega) hy)
      have a := c.able (k := k + 1 + y) (by omega)
      have hlen : ((net (k + 1 + y)).node A).setEffectPacket.len = 3 :=
        (Node.regular_effect (a.node A).regular (a.node A).instr).1
      have h0 := h1.used 0 (by decide) (by rw [h1.len, hlen]; decide)
      exact ⟨h0.trans (i1.trans h2.symm), h2.trans i2⟩
  obtain ⟨k1, k2⟩ := keep j (Nat.le_refl _)
  refine ⟨(st' _ (by omega) hjN).only, k2, ?_⟩
  by_cases hi : i = A
  · rw [hi]; exact ⟨k2, .refl _⟩
  · exact ⟨(sy i hi).2.trans (k1.trans k2), (sy i hi).1⟩

/-! ## C152: how soon a change is followed -/

/-- C152: if no packet is on its way when the master changes the effect, all devices follow after one
more `Tick`, until the next change. -/
theorem network_follows_at_once (c : Course net d N) (hn : n ≤ 99) {k₀ : Nat}
    (hm : (net k₀).getNumMasters ≠ 0) (hm' : ∀ j < k₀, (net j).getNumMasters = 0) {A k}
    (hk : k₀ + n ≤ k) (hA : OnlyMaster (net k) A) (ht : 60001 ∣ (net (k + 1)).now.toNat)
    (hp : (net k).packet = none) {j : Nat} (hj : 1 ≤ j) (hj' : j ≤ 60000) (hjN : k + 1 + j ≤ N)
    (i : Fin n) :
    ((net (k + 1 + j)).node i).getEffectIndex = ((net (k + 1)).node A).getEffectIndex ∧
      SameOrder ((net (k + 1 + j)).node i).getSetEffect ((net (k + 1 + j)).node A).getSetEffect :=
  (soon_index c hn hm hm' hk hA ht (.inr ⟨rfl, hp⟩) (.inl rfl) hj hj' hjN i).2.2

/-- C152: if the master transmits nothing in the `n + 1` `Tick`s after the one in which it changed the
effect, all devices follow after these, until the next change. -/
theorem network_follows_soon (c : Course net d N) (hn : n ≤ 99) {k₀ : Nat}
    (hm : (net k₀).getNumMasters ≠ 0) (hm' : ∀ j < k₀, (net j).getNumMasters = 0) {A k}
    (hk : k₀ + n ≤ k) (hA : OnlyMaster (net k) A) (ht : 60001 ∣ (net (k + 1)).now.toNat)
    (hs : ((net (k + 1 + (n + 1))).node A).sent = ((net (k + 1)).node A).sent) {j : Nat}
    (hj : n + 1 ≤ j) (hj' : j ≤ 60000) (hjN : k + 1 + j ≤ N) (i : Fin n) :
    ((net (k + 1 + j)).node i).getEffectIndex = ((net (k + 1)).node A).getEffectIndex ∧
      SameOrder ((net (k + 1 + j)).node i).getSetEffect ((net (k + 1 + j)).node A).getSetEffect :=
  (soon_index c hn hm hm' hk hA ht (.inl rfl) (.inr hs) hj hj' hjN i).2.2

/-- C152: for the first half hour no packet is on its way, except in the first `3 n + 1` ms after the
first master appeared, in the `2 n` ms after every multiple of 1001 and 2001 ms since then, and in the
`2 n` ms after each change. -/
theorem network_quiet (c : Course net d N) (hn : n ≤ 99) {k₀ : Nat}
    (hm : (net k₀).getNumMasters ≠ 0) (hm' : ∀ j < k₀, (net j).getNumMasters = 0) {k}
    (hk : k₀ + 3 * n + 2 ≤ k) (hkN : k ≤ N) (h6 : (net k).now.toNat ≤ 2000000)
    (h1 : 2 * n < ((net k).now.toNat - (net k₀).now.toNat) % 1001)
    (h2 : 2 * n < ((net k).now.toNat - (net k₀).now.toNat) % 2001)
    (h3 : 2 * n < (net k).now.toNat % 60001) :
    (net k).packet = none ∧ ∀ i, ((net k).radio i).sent = none := by
  obtain ⟨A, st⟩ := c.stable hn (k₀ := k₀) (by omega) hm hm'
  obtain ⟨A', _⟩ := c.appears hn (k := k₀) (by omega) hm hm'
  have hpos := A'.pos
  obtain ⟨e0, _⟩ := c.elects hn (k₀ := k₀) hm hm' (j := n - 1) (by omega)
  rw [show k₀ + 1 + (n - 1) = k₀ + n by omega] at e0
  obtain ⟨j, rfl⟩ : ∃ j, k = k₀ + n + 1 + j := ⟨k - (k₀ + n + 1), by omega⟩
  obtain ⟨e, x, v, tl, hx, _⟩ := c.tell hn st (j := j) (by omega)
  have hxy : (net (k₀ + n)).now.toNat + 1 + x + (2 * n + 1) ≤ (net (k₀ + n + 1 + j)).now.toNat := by
    rcases hx with rfl | ⟨g1, g2⟩
    · omega
    · by_cases hx0 : x = 0
      · omega
      obtain ⟨e1, _, h⟩ := chooses_at c hn (by omega) hm hm' st (j := x) (by omega)
      obtain ⟨e2, _⟩ := chooses_at c hn (by omega) hm hm' st (j := x + 1) (by omega)
      have h := h (by omega)
      rw [show k₀ + n + x + 1 = k₀ + n + 1 + x by omega] at h
      rw [show k₀ + n + (x + 1) = k₀ + n + 1 + x by omega] at e2
      rw [e2] at h
      have := h.1 g2
      omega
  obtain ⟨p, t1, t2, t3, t4⟩ := c.times hn (by omega) hm hm' st (j := 1 + j) (by omega)
  rw [← Nat.add_assoc] at t1 t2 t3 t4
  obtain ⟨p', r1, r2, r3⟩ := t4 h6
  have hmod : ∀ {a T m q : Nat}, T + m * q ≤ a → a ≤ T + (m - 1) + m * q → 0 < m →
      a = T + m * q + (a - T) % m := by
    intro a T m q g1 g2 g3
    obtain ⟨s, rfl⟩ : ∃ s, a = T + m * q + s := ⟨a - (T + m * q), by omega⟩
    have : (T + m * q + s - T) % m = s := by
      rw [show T + m * q + s - T = s + m * q by omega, Nat.add_mul_mod_self_left,
        Nat.mod_eq_of_lt (by omega)]
    rw [this]
  have m1 := hmod (m := 1001) t3 (by omega) (by decide)
  have m2 := hmod (m := 2001) r3 (by omega) (by decide)
  have hp : (net (k₀ + n + 1 + j)).packet = none := by
    apply Classical.byContradiction
    intro hp
    have := tl.busy ((net (k₀ + n + 1 + j)).now.toNat - (2 * n + 1)) (by omega) (by omega) (by omega) hp
    omega
  refine ⟨hp, ?_⟩
  obtain ⟨_, _, _, _, _, _, s⟩ := st (1 + j) (by omega)
  have := s.slot
  rw [← Nat.add_assoc] at this
  rcases this with ⟨_, h⟩ | ⟨q, h, _⟩
  · exact h
  · rw [hp] at h; cases h

end

/-! ## C152: the tests that look at the effect -/

/-- A network that runs at a millisecond per `Tick`. -/
theorem slow_course {n : Nat} {net : Nat → FakeNet n} {d : Nat → U32} {N : Nat}
    (c : Course net d N) (h0 : 0 < n) (hn : n ≤ 99) (h : ∀ k < N, d k = 1) (hN : 7001 ≤ N) :
    (∀ k ≤ N, (net k).now.toNat = n + k) ∧
    ∃ k₀ ≤ 7001, (net k₀).getNumMasters ≠ 0 ∧ ∀ j < k₀, (net j).getNumMasters = 0 := by
  have now : ∀ k ≤ N, (net k).now.toNat = n + k := by
    intro k
    induction k with
    | zero =>
      intro _
      rw [c.start.now, BitVec.toNat_ofNat]
      omega
    | succ k ih =>
      intro hk
      have hw := c.clock k (by omega)
      rw [course_now c (by omega), h k (by omega), Node.add_toNat hw (by decide), ih (by omega)]
      rfl
  refine ⟨now, ?_⟩
  obtain ⟨j, hj, hm⟩ := network_master_appears c h0 hn (k := 7001) hN (by decide)
    (by rw [now 7001 hN]; omega)
  have : ∀ j, (net j).getNumMasters ≠ 0 →
      ∃ k₀ ≤ j, (net k₀).getNumMasters ≠ 0 ∧ ∀ j < k₀, (net j).getNumMasters = 0 := by
    intro j
    induction j using Nat.strongRecOn with
    | _ j ih =>
      intro hm
      by_cases hz : ∀ i < j, (net i).getNumMasters = 0
      · exact ⟨j, Nat.le_refl _, hm, hz⟩
      · obtain ⟨i, hi⟩ := Classical.not_forall.1 hz
        obtain ⟨h1, h2⟩ := Classical.not_imp.1 hi
        obtain ⟨k₀, g1, g2⟩ := ih i h1 h2
        exact ⟨k₀, by omega, g2⟩
  obtain ⟨k₀, g1, g2⟩ := this j hm
  exact ⟨k₀, by omega, g2⟩

/-- C152: what the test `setEffectIndex` checks, for all random numbers.  After the first `Tick` all
devices say 0.  After 180000 more, which is 3 ms after the third change, all say the same, if no
packet was on its way just before the change. -/
theorem test_set_effect_index {net : Nat → FakeNet FakeNet.kNumNodes} {d : Nat → U32}
    (c : Course net d 180001) (h : ∀ k < 180001, d k = 1) :
    (∀ i, ((net 1).node i).getEffectIndex = 0) ∧
    ((net 179997).packet = none →
      ∀ i j, ((net 180001).node i).getEffectIndex = ((net 180001).node j).getEffectIndex) := by
  obtain ⟨now, k₀, hk, hm, hm'⟩ := slow_course c (by decide) (by decide) h (by decide)
  have e5 : FakeNet.kNumNodes = 5 := rfl
  constructor
  · intro i
    have r := c.round (k := 0) (by decide) c.start.loss
    have n0 : ((net 0).advanceMillis (d 0)).now.toNat = 6 := by
      rw [← r.now, now 1 (by decide), e5]
    have a := booted_able c.start
    have b := booted_early c.start (by decide)
    have := Early.tick (net := (net 0).advanceMillis (d 0)) ⟨b.1, b.2, b.3⟩ ⟨a.1, a.2, a.3⟩ r
      (by omega) (by omega) (by omega)
    exact (this.node i).index
  · intro hp i j
    obtain ⟨⟨A, hA⟩, _⟩ := network_one_master c (by decide) (by omega) hm hm'
    have key := fun i => network_follows_at_once c (by decide) hm hm' (k := 179997) (A := A)
      (by omega) (hA _ (by omega) (by decide)).1 (by rw [now 179998 (by decide)]; decide) hp (j := 3)
      (by decide) (by decide) (by decide) i
    exact (key i).1.trans (key j).1.symm

/-- C152: what the test `changesEffectWhenMasterNotStable` sees if the first device is not master, for
all random numbers: effect 1 before; `resetMaster` does nothing; and after 100 more `Tick`s the effect
the master chose at 60.001 s, if no packet was on its way then or the master transmits nothing in the
6 ms that follow.  So it fails if the master happened to choose effect 1 again. -/
theorem test_changes_effect {net : Nat → FakeNet FakeNet.kNumNodes} {d : Nat → U32}
    (c : Course net d 60090) (h : ∀ k < 60090, d k = 1) {A} (hA : OnlyMaster (net 59990) A)
    (h0 : A ≠ ⟨0, by decide⟩) (hp : (net 59995).packet = none ∨
      ((net 60002).node A).sent = ((net 59996).node A).sent) :
    ((net 59990).node ⟨0, by decide⟩).getEffectIndex = 1 ∧
    (∀ rand junk junk' seeds,
      (net 59990).resetMaster (n := 4) rand junk junk' seeds = .ok (net 59990)) ∧
    ((net 60090).node ⟨0, by decide⟩).getEffectIndex = ((net 59996).node A).getEffectIndex := by
  obtain ⟨now, k₀, hk, hm, hm'⟩ := slow_course c (by decide) (by decide) h (by decide)
  have e5 : FakeNet.kNumNodes = 5 := rfl
  obtain ⟨⟨B, hB⟩, _⟩ := network_one_master c (by decide) (by omega) hm hm'
  have hAB : A = B := FakeNet.only_unique (hB 59990 (by omega) (by decide)).1
    (by have := hA A; rwa [if_pos rfl] at this)
  subst hAB
  refine ⟨?_, fun rand junk junk' seeds => ?_, ?_⟩
  · have := (network_index_differs c (by decide) hm hm' (k := 59990) (A := A) (by omega)
      (by decide) hA (by rw [now 59990 (by decide)]; decide) ⟨0, by decide⟩).2
    rwa [if_neg (fun e => h0 e.symm)] at this
  · refine (reset_master_first_only rand junk junk' seeds (net 59990)).trans (if_neg ?_)
    have := hA ⟨0, by decide⟩
    rw [if_neg (fun e => h0 e.symm)] at this
    intro e
    have e' : ((net 59990).node ⟨0, by decide⟩).getCurrentState = .master := e
    rw [this] at e'; cases e'
  · have hk1 : 60001 ∣ (net (59995 + 1)).now.toNat := by rw [now 59996 (by decide)]; decide
    have o := (hB 59995 (by omega) (by decide)).1
    rcases hp with hp | hp
    · exact (network_follows_at_once c (by decide) hm hm' (k := 59995) (A := A)
        (by omega) o hk1 hp (j := 94) (by decide) (by decide) (by decide) _).1
    · exact (network_follows_soon c (by decide) hm hm' (k := 59995) (A := A)
        (by omega) o hk1 hp (j := 94) (by decide) (by decide) (by decide) _).1

/-- C152 (refuted that the effect changes): if the first device is master and no packet is on its way
when `changesEffectWhenMasterNotStable` resets it, the test fails for all random numbers: the first
device says 0 before, and 0 after. -/
theorem test_changes_effect_fails {net : Nat → FakeNet FakeNet.kNumNodes} {d : Nat → U32}
    (c : Course net d 59990) (h : ∀ k < 59990, d k = 1)
    (hA : OnlyMaster (net 59990) ⟨0, by decide⟩) (hp : (net 59990).packet = none)
    {rand junk junk' seeds draws} {reset last : FakeNet FakeNet.kNumNodes}
    (h1 : (net 59990).resetMaster (n := 4) rand junk junk' seeds = .ok reset)
    (h2 : reset.runTicks draws 100 = .ok last) :
    ((net 59990).node ⟨0, by decide⟩).getEffectIndex = 0 ∧
      (last.node ⟨0, by decide⟩).getEffectIndex = 0 := by
  obtain ⟨now, k₀, hk, hm, hm'⟩ := slow_course c (by decide) (by decide) h (by decide)
  have e5 : FakeNet.kNumNodes = 5 := rfl
  obtain ⟨B, st⟩ := c.stable (by decide) (k₀ := k₀) (by omega) hm hm'
  have st := st (59990 - (k₀ + 5)) (by omega)
  rw [show k₀ + FakeNet.kNumNodes + (59990 - (k₀ + 5)) = 59990 by omega] at st
  have hAB := FakeNet.only_unique hA (A := ⟨0, by decide⟩) (B := B)
    (by have := st.only B; rwa [if_pos rfl] at this)
  constructor
  · have := (network_index_differs c (by decide) hm hm' (k := 59990) (by omega)
      (by decide) hA (by rw [now 59990 (by decide)]; decide) ⟨0, by decide⟩).2
    rwa [if_pos rfl] at this
  · have h1 : (net 59990).reinitNode ⟨0, by decide⟩ (rand 0) junk junk' seeds = .ok reset := by
      have e := (reset_master_first_only rand junk junk' seeds (net 59990)).symm.trans h1
      rw [if_pos (by have := hA ⟨0, by decide⟩; rwa [if_pos rfl] at this)] at e
      exact e
    subst hAB
    obtain ⟨s, e, i⟩ := st.still hp (c.clock _ (Nat.le_refl _)) h1
    have e9 := now 59990 (by decide)
    have e9 : (net 59990).now.toNat = 59995 := e9.trans (by rw [e5])
    obtain ⟨_, _, r⟩ := s.run h2 (by rw [e]; omega) (by omega)
    exact (r _).1.trans i

/-- The theorems above say something: every device of the tests can be the only master, with no packet
on its way when the tests look, and just before the first and the third change. -/
theorem soon_courses_exist (A : Fin FakeNet.kNumNodes) :
    ∃ net, Course net (fun _ => 1) 180001 ∧ OnlyMaster (net 59990) A ∧ OnlyMaster (net 59995) A ∧
      (net (A.val + 4997)).getNumMasters ≠ 0 ∧
      (∀ j < A.val + 4997, (net j).getNumMasters = 0) ∧
      (net 59990).packet = none ∧ (net 59995).packet = none ∧ (net 179997).packet = none := by
  have e5 : FakeNet.kNumNodes = 5 := rfl
  have hA := A.isLt
  obtain ⟨net₀, h0, h⟩ := FakeNet.slow_exist A (by decide)
  have now := fun k h1 h2 => (h k h1 h2).2.1
  have c := (h 180001 (by omega) (by decide)).1
  have m0 : (walk (fun _ => 1) net₀ (A.val + 4997)).getNumMasters ≠ 0 := by
    rw [getNumMasters_one (h _ (by omega) (by omega)).2.2]; decide
  have m1 : ∀ j < A.val + 4997, (walk (fun _ => 1) net₀ j).getNumMasters = 0 :=
    fun j hj => h0 j (by omega)
  have n0 := now (A.val + 4997) (by omega) (by omega)
  have q : ∀ k, k = 59990 ∨ k = 59995 ∨ k = 179997 → (walk (fun _ => 1) net₀ k).packet = none := by
    intro k hk
    have n1 := now k (by omega) (by omega)
    exact (network_quiet c (by decide) m0 m1 (k := k) (by omega) (by omega) (by omega)
      (by omega) (by omega) (by omega)).1
  exact ⟨_, c, (h _ (by omega) (by omega)).2.2, (h _ (by omega) (by omega)).2.2, m0, m1,
    q _ (by omega), q _ (by omega), q _ (by omega)⟩

/-- `network_follows_at_once` and `network_follows_soon` apply: the devices follow a master they
already have. -/
example : ∃ (net : Nat → FakeNet 5) (A : Fin 5), OnlyMaster (net 59995) A ∧
    ∀ i, ((net 59997).node i).getEffectIndex = ((net 59996).node A).getEffectIndex := by
  obtain ⟨net, c, _, hA, m0, m1, _, hp, _⟩ := soon_courses_exist ⟨2, by decide⟩
  have now := (slow_course c (by decide) (by decide) (fun _ _ => rfl) (by decide)).1
  exact ⟨net, _, hA, fun i => (network_follows_at_once c (by decide) m0 m1 (k := 59995)
    (by decide) hA (by rw [now 59996 (by decide)]; decide) hp (j := 1) (by decide) (by decide)
    (by decide) i).1⟩

/-- The hypotheses of `test_set_effect_index` are met. -/
example : ∃ net : Nat → FakeNet FakeNet.kNumNodes, Course net (fun _ => 1) 180001 ∧
    ∀ i j, ((net 180001).node i).getEffectIndex = ((net 180001).node j).getEffectIndex := by
  obtain ⟨net, c, _, _, _, _, _, _, hp⟩ := soon_courses_exist ⟨1, by decide⟩
  exact ⟨net, c, (test_set_effect_index c (fun _ _ => rfl)).2 hp⟩

/-- A course cut short. -/
theorem course_prefix {n : Nat} {net : Nat → FakeNet n} {d : Nat → U32} {M N : Nat}
    (c : Course net d N) (h : M ≤ N) : Course net d M :=
  ⟨c.start, fun k hk => c.step k (by omega), fun k hk => c.fresh k (by omega),
    fun k hk => c.early k (by omega), fun k hk => c.pace k (by omega), fun k hk => c.clock k (by omega)⟩

/-- The hypotheses of `test_changes_effect` are met. -/
example : ∃ net : Nat → FakeNet FakeNet.kNumNodes,
    ((net 59990).node ⟨0, by decide⟩).getEffectIndex = 1 ∧
    ((net 60090).node ⟨0, by decide⟩).getEffectIndex =
      ((net 59996).node ⟨3, by decide⟩).getEffectIndex := by
  obtain ⟨net, c, hA, _, _, _, _, hp, _⟩ := soon_courses_exist ⟨3, by decide⟩
  obtain ⟨h1, _, h2⟩ := test_changes_effect (course_prefix c (by decide)) (fun _ _ => rfl) hA
    (by decide) (.inl hp)
  exact ⟨net, h1, h2⟩

/-- The hypotheses of `test_changes_effect_fails` are met. -/
example : ∃ (net : Nat → FakeNet FakeNet.kNumNodes) (reset last : FakeNet FakeNet.kNumNodes),
    Course net (fun _ => 1) 59990 ∧
    (net 59990).resetMaster (n := 4) (fun _ _ => 7) FakeNetwork.junk FakeNetwork.junk ⟨0, 0, 0⟩ =
      .ok reset ∧
    reset.runTicks (fun _ _ => 1) 100 = .ok last ∧
    ((net 59990).node ⟨0, by decide⟩).getEffectIndex = (last.node ⟨0, by decide⟩).getEffectIndex := by
  obtain ⟨net, c, hA, _, _, _, hp, _⟩ := soon_courses_exist ⟨0, by decide⟩
  obtain ⟨reset, h1, a⟩ : ∃ reset, (net 59990).resetMaster (n := 4) (fun _ _ => 7) FakeNetwork.junk
      FakeNetwork.junk ⟨0, 0, 0⟩ = .ok reset ∧ reset.Able := by
    obtain ⟨reset, h, a⟩ := FakeNet.step_able (c.able (k := 59990) (by decide))
      (.reinit ⟨0, by decide⟩ (fun _ => 7) FakeNetwork.junk FakeNetwork.junk ⟨0, 0, 0⟩)
    refine ⟨reset, (reset_master_first_only _ _ _ _ (net 59990)).trans ((if_pos ?_).trans h), a⟩
    have := hA ⟨0, by decide⟩; rwa [if_pos rfl] at this
  have run : ∀ (k : Nat) (net : FakeNet FakeNet.kNumNodes), net.Able →
      ∃ last, net.runTicks (fun _ _ => 1) k = .ok last := by
    intro k
    induction k with
    | zero => exact fun net _ => ⟨net, rfl⟩
    | succ k ih =>
      intro net a
      obtain ⟨net', h, a'⟩ := FakeNet.tick_able (net := net.advanceMillis 1) (draws := fun _ => 1)
        ⟨a.1, a.2, a.3⟩
      obtain ⟨last, h'⟩ := ih net' a'
      exact ⟨last, by simp only [FakeNet.runTicks, h, bind, Except.bind, h']⟩
  obtain ⟨last, h2⟩ := run 100 reset a
  have c' := course_prefix c (show 59990 ≤ 180001 by decide)
  obtain ⟨g1, g2⟩ := test_changes_effect_fails c' (fun _ _ => rfl) hA hp h1 h2
  exact ⟨net, reset, last, c', h1, h2, g1.trans g2.symm⟩

end Firefly.Props
