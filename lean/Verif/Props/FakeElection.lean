import Verif.Lemmas.FakeCourse
import Verif.Props.FakeNetwork

/-! # Elections in the network of the integration tests (C137, C138) -/

namespace Firefly.Props
open Spec

variable {n : Nat} {net : Nat → FakeNet n} {d : Nat → U32} {N : Nat}

/-! ## C137: there is one master, for ever -/

/-- C137: a master appears at the latest in the first `Tick` after 7000 ms on the clock. -/
theorem network_master_appears (c : Course net d N) (h0 : 0 < n) (hn : n ≤ 99) {k : Nat}
    (hk : k ≤ N) (hk0 : 0 < k) (ht : 7000 < (net k).now.toNat) :
    ∃ j ≤ k, (net j).getNumMasters ≠ 0 := by
  apply Classical.byContradiction
  intro hno
  have hz : ∀ j ≤ k, (net j).getNumMasters = 0 := fun j hj =>
    Classical.byContradiction fun e => hno ⟨j, hj, e⟩
  have := (c.waiting hn hk hz).2.1 hk0 ⟨0, h0⟩
  simp only at this
  omega

/-- C137: from `n` `Tick`s after the first master appeared, the network has exactly one master, and
that is the same device for ever. -/
theorem network_one_master (c : Course net d N) (hn : n ≤ 99) {k₀ : Nat} (hk : k₀ ≤ N)
    (hm : (net k₀).getNumMasters ≠ 0) (hm' : ∀ j < k₀, (net j).getNumMasters = 0) :
    (∃ A, ∀ k, k₀ + n ≤ k → k ≤ N → OnlyMaster (net k) A ∧ (net k).getNumMasters = 1) ∧
    ∀ k, k₀ ≤ k → k ≤ N → (net k).getNumMasters ≠ 0 := by
  obtain ⟨A₀, _⟩ := c.appears hn hk hm hm'
  have hpos : 0 < n := A₀.pos
  constructor
  · by_cases hN : k₀ + n ≤ N
    · have e : k₀ + 1 + (n - 1) = k₀ + n := by omega
      obtain ⟨h1, h2⟩ := c.elects hn hm hm' (j := n - 1) (by omega)
      rw [e] at h1 h2
      have hst : ∃ A, FakeNet.Stable (net (k₀ + n)) A (net (k₀ + n)).now.toNat := by
        rcases h2 with ⟨_, A, x, g1, g2⟩ | h2
        · obtain ⟨_, _, g5, _, g50⟩ := c.appears hn hk hm hm'
          exact ⟨A, g1.stable (g1.sole (by omega)) hn (by omega) (by omega) (by omega)⟩
        · exact h2
      obtain ⟨A, hst⟩ := hst
      refine ⟨A, fun k h1 h2 => ?_⟩
      have : ∀ j, k₀ + n + j ≤ N →
          FakeNet.Stable (net (k₀ + n + j)) A (net (k₀ + n + j)).now.toNat := by
        intro j
        induction j with
        | zero => exact fun _ => hst
        | succ j ih => exact fun hj => Stable.later (c := c) hn (k := k₀ + n + j) (by omega) (ih (by omega))
      have hk := this (k - (k₀ + n)) (by omega)
      rw [show k₀ + n + (k - (k₀ + n)) = k by omega] at hk
      exact ⟨hk.only, FakeNet.getNumMasters_one hk.only⟩
    · exact ⟨A₀, fun k h1 h2 => absurd h2 (by omega)⟩
  · intro k h1 h2
    by_cases hk0 : k = k₀
    · rw [hk0]; exact hm
    · have e : k₀ + 1 + (k - (k₀ + 1)) = k := by omega
      obtain ⟨_, h⟩ := c.elects hn hm hm' (j := k - (k₀ + 1)) (by omega)
      rw [e] at h
      rcases h with ⟨_, A, x, g, _⟩ | ⟨A, g⟩
      · exact fun e => FakeNet.getNumMasters_zero.1 e A g.master
      · rw [FakeNet.getNumMasters_one g.only]; decide

/-- The clock of a network. -/
theorem course_now (c : Course net d N) {k : Nat} (hk : k < N) :
    (net (k + 1)).now = (net k).now + d k := by
  obtain ⟨draws, h⟩ := c.step k hk
  exact (FakeNet.tick_round h).now

/-- If the clock is at least at `7000 + n` when the `m`-th `Tick` is over, and ran at a millisecond
per `Tick` since 7000, then there is one master from then on. -/
theorem network_settled (c : Course net d N) (h0 : 0 < n) (hn : n ≤ 99) {m a : Nat} (ha : 0 < a)
    (hpace : ∀ k, a ≤ k → k < N → d k = 1) (hstart : (net a).now.toNat ≤ 7000)
    (hm : a + (7001 - (net a).now.toNat) + n ≤ m) (hmN : m ≤ N) :
    ∃ A, ∀ k, m ≤ k → k ≤ N → OnlyMaster (net k) A ∧ (net k).getNumMasters = 1 := by
  have hnow : ∀ j, a + j ≤ N → (net (a + j)).now.toNat = (net a).now.toNat + j := by
    intro j
    induction j with
    | zero => exact fun _ => rfl
    | succ j ih =>
      intro hj
      have e := course_now c (k := a + j) (by omega)
      have := c.clock (a + j) (by omega)
      show (net (a + j + 1)).now.toNat = _
      rw [e, hpace _ (by omega) (by omega), Node.add_toNat this (by decide), ih (by omega),
        show (1 : U32).toNat = 1 from rfl]
      omega
  have hlate := hnow (7001 - (net a).now.toNat) (by omega)
  obtain ⟨j, hj, hjm⟩ := network_master_appears c h0 hn (k := a + (7001 - (net a).now.toNat))
    (by omega) (by omega) (by omega)
  -- the first master
  have first : ∀ j, (net j).getNumMasters ≠ 0 → ∃ k₀ ≤ j, (net k₀).getNumMasters ≠ 0 ∧
      ∀ i < k₀, (net i).getNumMasters = 0 := by
    intro j
    induction j using Nat.strongRecOn with
    | ind j ih =>
      intro h
      by_cases hall : ∀ i < j, (net i).getNumMasters = 0
      · exact ⟨j, Nat.le_refl _, h, hall⟩
      · have : ∃ i, i < j ∧ (net i).getNumMasters ≠ 0 := Classical.byContradiction fun hno =>
          hall fun i hi => Classical.byContradiction fun e => hno ⟨i, hi, e⟩
        obtain ⟨i, hi, he⟩ := this
        obtain ⟨k₀, h1, h2⟩ := ih i hi he
        exact ⟨k₀, by omega, h2⟩
  obtain ⟨k₀, h1, h2, h3⟩ := first j hjm
  obtain ⟨⟨A, hA⟩, _⟩ := network_one_master c hn (k₀ := k₀) (by omega) h2 h3
  exact ⟨A, fun k hk hkN => hA k (by omega) hkN⟩

/-! ## C138: what the integration tests check, for all random numbers -/

/-- C138: the test `electsOneMaster`: a `Tick`, another one 4995 ms later, and 2010 more a
millisecond apart.  Then there is one master. -/
theorem test_elects_one_master {net : Nat → FakeNet FakeNet.kNumNodes} (c : Course net d 2012)
    (h0 : d 0 = 0) (h1 : d 1 = 4995) (h2 : ∀ k, 2 ≤ k → k < 2012 → d k = 1) :
    (net 2012).getNumMasters = 1 := by
  have e0 : (net 0).now = BitVec.ofNat 32 5 := c.start.now
  have e1 := course_now c (k := 0) (by decide)
  have e2 := course_now c (k := 1) (by decide)
  have e : (net 2).now.toNat = 5000 := by
    rw [e2, e1, e0, h0, h1]; decide
  obtain ⟨A, h⟩ := network_settled c (by decide) (by decide) (a := 2) (m := 2012) (by decide) h2
    (by omega) (by rw [e]; decide) (Nat.le_refl _)
  exact (h 2012 (Nat.le_refl _) (Nat.le_refl _)).2

/-- C138: the test `stableOverTime`: 10000 `Tick`s, a millisecond apart, and from then on, for as
long as one likes, there is one master, and it stays the same. -/
theorem test_stable_over_time {net : Nat → FakeNet FakeNet.kNumNodes} (c : Course net d N)
    (h : ∀ k < N, d k = 1) :
    ∃ A, ∀ k, 7001 ≤ k → k ≤ N → OnlyMaster (net k) A ∧ (net k).getNumMasters = 1 := by
  by_cases hN : 7001 ≤ N
  · have e0 : (net 0).now = BitVec.ofNat 32 5 := c.start.now
    have e1 := course_now c (k := 0) (by omega)
    have e : (net 1).now.toNat = 6 := by
      rw [e1, e0, h 0 (by omega)]; decide
    exact network_settled c (by decide) (by decide) (a := 1) (m := 7001) (by decide)
      (fun k _ hk => h k hk) (by omega) (by rw [e]; decide) hN
  · exact ⟨⟨0, by decide⟩, fun k h1 h2 => absurd h2 (by omega)⟩

/-! ## A course -/

namespace FakeNetwork

/-- Eight seconds pass before the first `Tick`, then a millisecond before each. -/
def pause (k : Nat) : U32 := if k = 0 then 8000 else 1

/-- A network of two after `k` `Tick`s. -/
def demo (r : Fin 2 → Rand) : Nat → Except Fault (FakeNet 2)
  | 0 => two r
  | k + 1 => do
    let net ← demo r k
    (net.advanceMillis (pause k)).tick fun _ => 1

/-- The same, where it exists. -/
def demoNet (r : Fin 2 → Rand) (k : Nat) : FakeNet 2 :=
  (demo r k).toOption.getD
    ⟨0, fun _ => .init, fun _ => .init 0 (fun _ => 0) junk junk, none, 0⟩

/-- `Fresh`, computed. -/
def isFresh (net net' : FakeNet 2) : Bool :=
  (List.finRange 2).all fun i => decide ((own net net' i).map (·.id)).Nodup &&
    (own net net' i).all fun p => (List.finRange 2).all fun j =>
      decide (p.id ∉ memory (net.node j)) && net.packet.all (fun q => p.id != q.id) &&
      (net.radio j).sent.all (fun q => p.id != q.id) &&
      (decide (i = j) || (own net net' j).all fun q => p.id != q.id)

theorem isFresh_sound {net net' : FakeNet 2} (h : isFresh net net' = true) : Fresh net net' := by
  simp only [isFresh, List.all_eq_true, Bool.and_eq_true, decide_eq_true_eq, bne_iff_ne,
    Bool.or_eq_true, Option.all_eq_true] at h
  have m := fun i : Fin 2 => List.mem_finRange i
  exact ⟨fun i p hp j => ((((h i (m i)).2 p hp j (m j)).1).1).1,
    fun i p hp q hq => ((((h i (m i)).2 p hp i (m i)).1).1).2 q hq,
    fun i p hp j q hq => (((h i (m i)).2 p hp j (m j)).1).2 q hq,
    fun i j hij p hp q hq => (((h i (m i)).2 p hp j (m j)).2).resolve_left hij q hq,
    fun i => (h i (m i)).1⟩

end FakeNetwork

/-- A concrete case of C137: the two of the example above, up to the sixth `Tick`.  Two masters
appear in the first `Tick`; from the third on the second device is the only one. -/
theorem demo_course : Course (FakeNetwork.demoNet FakeNetwork.apart) FakeNetwork.pause 6 ∧
    (FakeNetwork.demoNet FakeNetwork.apart 1).getNumMasters = 2 ∧
    ∀ k, 3 ≤ k → k ≤ 6 → OnlyMaster (FakeNetwork.demoNet FakeNetwork.apart k) 1 := by
  have run : ∀ k ≤ 6, FakeNetwork.demo FakeNetwork.apart k =
      .ok (FakeNetwork.demoNet FakeNetwork.apart k) := by
    have h : ∀ k < 7, (FakeNetwork.demo FakeNetwork.apart k).toOption.isSome = true := by
      decide +kernel
    intro k hk
    have := h k (by omega)
    unfold FakeNetwork.demoNet
    cases e : FakeNetwork.demo FakeNetwork.apart k with
    | error f => rw [e] at this; cases this
    | ok net => rfl
  have checks : ∀ k < 6, FakeNetwork.isFresh ((FakeNetwork.demoNet FakeNetwork.apart k).advanceMillis
      (FakeNetwork.pause k)) (FakeNetwork.demoNet FakeNetwork.apart (k + 1)) = true := by
    decide +kernel
  have early : ∀ k < 6, (FakeNetwork.demoNet FakeNetwork.apart k).getNumMasters = 0 →
      (FakeNetwork.demoNet FakeNetwork.apart k).now.toNat + (FakeNetwork.pause k).toNat ≤ 50000 := by
    decide +kernel
  have pace : ∀ k < 6, (FakeNetwork.demoNet FakeNetwork.apart k).getNumMasters ≠ 0 →
      FakeNetwork.pause k = 1 := by
    decide +kernel
  have clock : ∀ k < 7, (FakeNetwork.demoNet FakeNetwork.apart k).now.toNat + 255000 < 2 ^ 32 := by
    decide +kernel
  have only : ∀ k < 7, 3 ≤ k → ∀ i : Fin 2,
      ((FakeNetwork.demoNet FakeNetwork.apart k).node i).getCurrentState =
        if i = 1 then .master else .slave := by
    decide +kernel
  refine ⟨⟨FakeNetwork.two_booted (run 0 (by decide)), fun k hk => ⟨fun _ => 1, ?_⟩,
    fun k hk => FakeNetwork.isFresh_sound (checks k hk), early, pace,
    fun k hk => clock k (by omega)⟩, by decide +kernel, fun k h1 h2 => only k (by omega) h1⟩
  have h := run (k + 1) (by omega)
  unfold FakeNetwork.demo at h
  rw [run k (by omega)] at h
  exact h

/-- C137, why the numbers drawn must not be in use: two devices that draw the same numbers both
become master and take each other's packets for their own; 40 `Tick`s later there are still two
masters. -/
theorem same_numbers_two_masters :
    (FakeNetwork.demoNet (fun _ => FakeNetwork.apart 0) 0).Booted ∧
    (∀ k < 40, ((FakeNetwork.demoNet (fun _ => FakeNetwork.apart 0) k).advanceMillis
      (FakeNetwork.pause k)).tick (fun _ => 1) =
        .ok (FakeNetwork.demoNet (fun _ => FakeNetwork.apart 0) (k + 1))) ∧
    ∀ k, 1 ≤ k → k ≤ 40 →
      (FakeNetwork.demoNet (fun _ => FakeNetwork.apart 0) k).getNumMasters = 2 := by
  have h : ∀ k < 41, (FakeNetwork.demo (fun _ => FakeNetwork.apart 0) k).toOption.isSome = true ∧
      (1 ≤ k → (FakeNetwork.demoNet (fun _ => FakeNetwork.apart 0) k).getNumMasters = 2) := by
    decide +kernel
  have run : ∀ k ≤ 40, FakeNetwork.demo (fun _ => FakeNetwork.apart 0) k =
      .ok (FakeNetwork.demoNet (fun _ => FakeNetwork.apart 0) k) := by
    intro k hk
    have := (h k (by omega)).1
    unfold FakeNetwork.demoNet
    cases e : FakeNetwork.demo (fun _ => FakeNetwork.apart 0) k with
    | error f => rw [e] at this; cases this
    | ok net => rfl
  refine ⟨FakeNetwork.two_booted (run 0 (by decide)), fun k hk => ?_,
    fun k h1 h2 => (h k (by omega)).2 h1⟩
  have h := run (k + 1) (by omega)
  unfold FakeNetwork.demo at h
  rw [run k (by omega)] at h
  exact h

end Firefly.Props
