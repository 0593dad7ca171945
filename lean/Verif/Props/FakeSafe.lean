import Verif.Lemmas.FakeSafe
import Verif.Props.FakeElection

/-! # The network of the integration tests does not abort (C141) -/

namespace Firefly.Props
open Spec

/-- C141: a device of the test network can be made, whatever the random numbers. -/
theorem network_device_boots (now rand junk junk' seeds) :
    ∃ d, FakeNet.boot now rand junk junk' seeds = .ok d := by
  obtain ⟨s, e, k⟩ := FakeNet.newNode_able now rand junk junk' seeds
  obtain ⟨d, hd, _⟩ := FakeNet.device_able (r := .init) (now := now) k
    (fun p hp => by cases hp) (fun p hp => by cases hp)
  exact ⟨d, by simp only [FakeNet.boot, e, bind, Except.bind, hd]⟩

/-- C141: a network of any size can be made, whatever the random numbers. -/
theorem network_boots (n : Nat) (rand : Fin n → Rand) (junk junk' : PType × Vector U8 58)
    (seeds : EffectSeeds) :
    ∃ net : FakeNet n, net.Booted ∧ ∀ i, FakeNet.boot (BitVec.ofNat 32 (i.val + 1)) (rand i) junk
      junk' seeds = .ok ⟨net.radio i, net.node i⟩ := by
  have h := fun i : Fin n =>
    network_device_boots (BitVec.ofNat 32 (i.val + 1)) (rand i) junk junk' seeds
  let d : Fin n → FakeDevice := fun i => Classical.choose (h i)
  have hd : ∀ i : Fin n, FakeNet.boot (BitVec.ofNat 32 (i.val + 1)) (rand i) junk junk' seeds =
      .ok (d i) := fun i => Classical.choose_spec (h i)
  exact ⟨⟨BitVec.ofNat 32 n, fun i => (d i).radio, fun i => (d i).node, none, 0⟩,
    ⟨rfl, fun i => ⟨rand i, junk, junk', seeds, hd i⟩, rfl, rfl⟩, hd⟩

/-- C141: whatever a test does with the network, no call aborts (no `assert` of the host build fails
and no remainder by zero is taken), every packet a device ever transmitted since it was last made is
a heartbeat, a claim or an instruction for an effect and a palette that exist, and such is the effect
and the palette each device shows. -/
theorem network_never_aborts {n} {net : FakeNet n} (b : net.Booted) (acts : List (FakeNet.Act n)) :
    ∃ net', net.after acts = .ok net' ∧ ∀ i,
      (∀ p ∈ (net'.node i).sent, Regular p) ∧
      (net'.node i).getEffectIndex.toNat < 27 ∧
      (net'.node i).getSetEffect.type = .setEffect ∧ Regular (net'.node i).getSetEffect := by
  obtain ⟨net', h, k⟩ := FakeNet.after_able (FakeNet.booted_able b) acts
  exact ⟨net', h, fun i => ⟨(k.node i).sent, (k.node i).index, (k.node i).instr,
    (k.node i).regular⟩⟩

/-- A concrete case: a network of five that is made to hear claims, loses packets and loses two of
its devices. -/
example : ∃ net₀ net : FakeNet 5, net₀.Booted ∧ net₀.after [.tick fun _ => 0, .advance 8000,
    .loss 3, .tick fun i => i.val, .reinit 2 (fun _ => 7) FakeNetwork.junk FakeNetwork.junk
      ⟨0, 0, 0⟩, .transmit Fakes.packet, .advance 1, .tick fun _ => 3] = .ok net := by
  obtain ⟨net₀, h, _⟩ := network_boots 5 (fun _ n => n) FakeNetwork.junk FakeNetwork.junk ⟨0, 0, 0⟩
  obtain ⟨net, h', _⟩ := network_never_aborts h [.tick fun _ => 0, .advance 8000,
    .loss 3, .tick fun i => i.val, .reinit 2 (fun _ => 7) FakeNetwork.junk FakeNetwork.junk
      ⟨0, 0, 0⟩, .transmit Fakes.packet, .advance 1, .tick fun _ => 3]
  exact ⟨net₀, net, h, h'⟩

/-! ## C136: what `reinitNode` does -/

/-- C136: `reinitNode` makes device `i` anew: a slave that has sent nothing, remembers nothing and
gives a master 5 to 7 s.  Nothing else changes, not even the radio of the device: a packet that it
had sent and the network has not taken yet is taken later. -/
theorem reinit_only {n} (net : FakeNet n) (i : Fin n) (rand junk junk' seeds) :
    ∃ net', net.reinitNode i rand junk junk' seeds = .ok net' ∧
      (net'.node i).getCurrentState = .slave ∧ (net'.node i).sent = [] ∧
      (∀ p, p.id ≠ 0 → (net'.node i).delivered (some p) = some p) ∧
      (net.now.toNat + 255000 < 2 ^ 32 →
        net.now.toNat + 5000 ≤ (net'.node i).timers.heartbeat.toNat ∧
        (net'.node i).timers.heartbeat.toNat < net.now.toNat + 7000) ∧
      (∀ j, j ≠ i → net'.node j = net.node j) ∧ net'.radio = net.radio ∧
      net'.packet = net.packet ∧ net'.now = net.now ∧ net'.loss = net.loss := by
  obtain ⟨s, e, k⟩ := FakeNet.newNode_able net.now rand junk junk' seeds
  have hex : ∃ net', net.reinitNode i rand junk junk' seeds = .ok net' ∧ net'.node i = s ∧
      (∀ j, j ≠ i → net'.node j = net.node j) ∧ net'.radio = net.radio ∧
      net'.packet = net.packet ∧ net'.now = net.now ∧ net'.loss = net.loss :=
    ⟨{ net with node := fun j => if j = i then s else net.node j },
      by simp only [FakeNet.reinitNode, e, bind, Except.bind, pure, Except.pure],
      if_pos rfl, fun j hj => if_neg hj, rfl, rfl, rfl, rfl⟩
  obtain ⟨net', h1, h2, h3⟩ := hex
  refine ⟨net', h1, ?_⟩
  rw [h2]
  have hi : ∃ m m', s = ((Node.init net.now rand junk junk').setNumEffects m).setNumPalettes m' := by
    unfold FakeNet.newNode at e
    obtain ⟨r, _, e⟩ := Node.bind_ok e
    cases e
    exact ⟨_, _, rfl⟩
  obtain ⟨m, m', hi⟩ := hi
  refine ⟨newNode_slave e, ?_, fun p hp => ?_, fun hw => ?_, h3⟩
  · rw [hi]
    simp only [Node.setNumEffects, Node.setNumPalettes, Node.init, Node.beginSlave,
      Node.armSlaveTimeout_eq]
  · have hc : s.nm = NM.init := by
      rw [hi]
      simp only [Node.setNumEffects, Node.setNumPalettes, Node.init, Node.beginSlave,
        Node.armSlaveTimeout_eq]
    simp only [Node.delivered, hc]
    rw [if_neg]
    simpa [NM.init] using hp
  · have ht : s.timers.heartbeat = net.now + BitVec.ofNat 32 (5000 + rand 0 % 2000) := by
      rw [hi]
      simp only [Node.setNumEffects, Node.setNumPalettes, Node.init, Node.beginSlave,
        Node.armSlaveTimeout_eq]
    rw [ht, Node.timeout_toNat hw]
    omega

/-! ## C138, with the calls the tests make -/

/-- `runTicks` advances the clock by a millisecond and calls `Tick`, as often as it is told. -/
theorem run_ticks {n} {draws : Nat → Fin n → Nat} {k : Nat} {net c : FakeNet n}
    (h : net.runTicks draws k = .ok c) :
    ∃ tr : Nat → FakeNet n, tr 0 = net ∧ tr k = c ∧
      ∀ j < k, ∃ ds, ((tr j).advanceMillis 1).tick ds = .ok (tr (j + 1)) := by
  induction k generalizing net with
  | zero => cases h; exact ⟨fun _ => c, rfl, rfl, fun j hj => absurd hj (by omega)⟩
  | succ k ih =>
    obtain ⟨net₁, h1, h2⟩ := Node.bind_ok h
    obtain ⟨tr, t0, tk, ts⟩ := ih h2
    refine ⟨fun j => if j = 0 then net else tr (j - 1), rfl, by simpa using tk, fun j hj => ?_⟩
    cases j with
    | zero => exact ⟨draws k, by simpa [t0] using h1⟩
    | succ j => simpa using ts j (by omega)

/-- C138: the test `electsOneMaster` as it stands, with the network that its constructor makes, for
all random numbers: if the packet numbers drawn meanwhile were not in use then the test succeeds. -/
theorem test_elects_one_master_run {start a b c : FakeNet FakeNet.kNumNodes} {d₀ d₁ ds}
    (hb : start.Booted) (h1 : start.tick d₀ = .ok a) (h2 : (a.advanceMillis 4995).tick d₁ = .ok b)
    (h3 : b.runTicks ds (2000 + 10) = .ok c) :
    ∃ (tr : Nat → FakeNet FakeNet.kNumNodes) (d : Nat → U32), tr 0 = start ∧ tr 1 = a ∧ tr 2 = b ∧
      tr 2012 = c ∧
      (∀ k < 2012, ∃ draws, ((tr k).advanceMillis (d k)).tick draws = .ok (tr (k + 1))) ∧
      ((∀ k < 2012, Fresh ((tr k).advanceMillis (d k)) (tr (k + 1))) → c.getNumMasters = 1) := by
  obtain ⟨tr, t0, tk, ts⟩ := run_ticks h3
  have hd : ∃ d : Nat → U32, d 0 = 0 ∧ d 1 = 4995 ∧ ∀ k, d (k + 2) = 1 :=
    ⟨fun k => if k = 0 then 0 else if k = 1 then 4995 else 1, rfl, rfl, fun k => by simp⟩
  have ht : ∃ t : Nat → FakeNet FakeNet.kNumNodes, t 0 = start ∧ t 1 = a ∧ ∀ k, t (k + 2) = tr k :=
    ⟨fun k => if k = 0 then start else if k = 1 then a else tr (k - 2), rfl, rfl,
      fun k => by simp⟩
  obtain ⟨d, e0, e1, e2⟩ := hd
  obtain ⟨t, f0, f1, f2⟩ := ht
  have hsteps : ∀ k < 2012, ∃ draws, ((t k).advanceMillis (d k)).tick draws = .ok (t (k + 1)) := by
    intro k hk
    match k, hk with
    | 0, _ =>
      refine ⟨d₀, ?_⟩
      rw [f0, e0, f1, ← h1]
      unfold FakeNet.advanceMillis
      rw [show start.now + 0 = start.now from BitVec.add_zero _]
    | 1, _ => exact ⟨d₁, by rw [f1, e1, f2 0, t0]; exact h2⟩
    | k + 2, hk =>
      obtain ⟨x, hx⟩ := ts k (by omega)
      exact ⟨x, by rw [f2, e2, f2 (k + 1)]; exact hx⟩
  refine ⟨t, d, f0, f1, by rw [f2 0]; exact t0, by rw [f2 2010]; exact tk, hsteps, fun hf => ?_⟩
  have step : ∀ k < 2012, (t (k + 1)).now = (t k).now + d k := fun k hk => by
    obtain ⟨x, hx⟩ := hsteps k hk
    exact (FakeNet.tick_round hx).now
  have n0 : (t 0).now = 5 := by rw [f0]; exact hb.now
  have n1 : (t 1).now = 5 := by rw [step 0 (by decide), n0, e0]; rfl
  have n2 : (t 2).now = 5000 := by rw [step 1 (by decide), n1, e1]; rfl
  have hnow : ∀ k, k ≤ 2010 → (t (k + 2)).now.toNat = 5000 + k := by
    intro k
    induction k with
    | zero => intro _; rw [n2]; rfl
    | succ k ih =>
      intro hk
      have := ih (by omega)
      rw [show k + 1 + 2 = k + 2 + 1 from rfl, step (k + 2) (by omega), e2,
        Node.add_toNat (by omega) (by decide), this, show (1 : U32).toNat = 1 from rfl]
      omega
  have hlow : ∀ k ≤ 2012, (t k).now.toNat ≤ 7010 := by
    intro k hk
    match k, hk with
    | 0, _ => rw [n0]; decide
    | 1, _ => rw [n1]; decide
    | k + 2, hk => rw [hnow k (by omega)]; omega
  have m0 : (t 0).getNumMasters = 0 := by
    rw [f0]
    refine FakeNet.getNumMasters_zero.2 fun i => ?_
    rw [((hb.idle (by decide)).silent i).slave]; decide
  have dlow : ∀ k < 2012, (d k).toNat ≤ 4995 := by
    intro k hk
    match k, hk with
    | 0, _ => rw [e0]; decide
    | 1, _ => rw [e1]; decide
    | k + 2, hk => rw [e2]; decide
  have hc1 : Course t d 1 := by
    refine ⟨by rw [f0]; exact hb, fun k hk => hsteps k (by omega), fun k hk => hf k (by omega),
      fun k hk _ => ?_, fun k hk hm => ?_, fun k hk => ?_⟩
    · have := hlow k (by omega); have := dlow k (by omega); omega
    · rw [show k = 0 by omega] at hm; exact absurd m0 hm
    · have := hlow k (by omega); omega
  have m1 : (t 1).getNumMasters = 0 := by
    apply Classical.byContradiction
    intro hm
    obtain ⟨_, _, h5, _⟩ := hc1.appears (by decide) (k := 1) (by decide) hm fun j hj => by
      rw [show j = 0 by omega]; exact m0
    rw [n1] at h5
    exact absurd h5 (by decide)
  have hc : Course t d 2012 := by
    refine ⟨by rw [f0]; exact hb, hsteps, hf, fun k hk _ => ?_, fun k hk hm => ?_, fun k hk => ?_⟩
    · have := hlow k (by omega); have := dlow k (by omega); omega
    · match k, hk with
      | 0, _ => exact absurd m0 hm
      | 1, _ => exact absurd m1 hm
      | k + 2, _ => exact e2 k
    · have := hlow k (by omega); omega
  rw [← tk, ← f2 2010]
  exact test_elects_one_master hc e0 e1 fun k h2 hk => by
    rw [show k = (k - 2) + 2 by omega]; exact e2 _

/-- C138: the test `stableOverTime` as it stands, for all random numbers: `runTicks` for at least
7001 `Tick`s (the test has 10000), then any number of steps of a millisecond, up to 49 days in all. -/
theorem test_stable_over_time_run {start b c : FakeNet FakeNet.kNumNodes} {k m ds ds'}
    (hb : start.Booted) (hk : 7001 ≤ k) (h1 : start.runTicks ds k = .ok b)
    (h2 : b.runTicks ds' m = .ok c) (hlong : k + m + 255005 < 2 ^ 32) :
    ∃ tr : Nat → FakeNet FakeNet.kNumNodes, tr 0 = start ∧ tr k = b ∧ tr (k + m) = c ∧
      (∀ j < k + m, ∃ draws, ((tr j).advanceMillis 1).tick draws = .ok (tr (j + 1))) ∧
      ((∀ j < k + m, Fresh ((tr j).advanceMillis 1) (tr (j + 1))) →
        ∃ A, ∀ j, k ≤ j → j ≤ k + m → OnlyMaster (tr j) A ∧ (tr j).getNumMasters = 1) := by
  obtain ⟨t1, a0, ak, as⟩ := run_ticks h1
  obtain ⟨t2, b0, bk, bs⟩ := run_ticks h2
  have ht : ∃ t : Nat → FakeNet FakeNet.kNumNodes, (∀ j ≤ k, t j = t1 j) ∧ ∀ j, t (k + j) = t2 j := by
    refine ⟨fun j => if j ≤ k then t1 j else t2 (j - k), fun j hj => if_pos hj, fun j => ?_⟩
    cases j with
    | zero => simp [b0, ak]
    | succ j =>
      show (if k + (j + 1) ≤ k then _ else _) = _
      rw [if_neg (by omega)]
      congr 1; omega
  obtain ⟨t, f1, f2⟩ := ht
  have hsteps : ∀ j < k + m, ∃ draws, ((t j).advanceMillis 1).tick draws = .ok (t (j + 1)) := by
    intro j hj
    by_cases h : j < k
    · rw [f1 j (by omega), f1 (j + 1) (by omega)]; exact as j h
    · have e : j = k + (j - k) := by omega
      have e' : j + 1 = k + (j - k + 1) := by omega
      rw [e', e, f2, f2]
      have := bs (j - k) (by omega)
      simpa using this
  refine ⟨t, by rw [f1 0 (by omega)]; exact a0, by rw [f1 k (Nat.le_refl _)]; exact ak,
    by rw [f2]; exact bk, hsteps, fun hf => ?_⟩
  have n0 : (t 0).now.toNat = 5 := by
    rw [f1 0 (by omega), a0, hb.now]; rfl
  have hnow : ∀ j ≤ k + m, (t j).now.toNat = 5 + j := by
    intro j
    induction j with
    | zero => exact fun _ => n0
    | succ j ih =>
      intro hj
      have := ih (by omega)
      obtain ⟨x, hx⟩ := hsteps j (by omega)
      rw [(FakeNet.tick_round hx).now]
      show ((t j).now + 1).toNat = _
      rw [Node.add_toNat (by omega) (by decide), this, show (1 : U32).toNat = 1 from rfl]
      omega
  have start0 : (t 0).Booted := by rw [f1 0 (by omega), a0]; exact hb
  have mk : ∀ N, N ≤ k + m → (∀ j < N, (t j).getNumMasters = 0 → j ≤ 49000) →
      Course t (fun _ => 1) N := fun N hN h =>
    ⟨start0, fun j hj => hsteps j (by omega), fun j hj => hf j (by omega), fun j hj hm => by
      have := h j hj hm
      rw [hnow j (by omega), show (1 : U32).toNat = 1 from rfl]; omega, fun _ _ _ => rfl,
      fun j hj => by rw [hnow j (by omega)]; omega⟩
  have late : ∀ N, N ≤ k + m → ∀ j < N, (t j).getNumMasters = 0 → j ≤ 49000 := by
    intro N
    induction N with
    | zero => exact fun _ j hj => absurd hj (by omega)
    | succ N ih =>
      intro hN j hj hm
      by_cases h : j < N
      · exact ih (by omega) j h hm
      · by_cases h' : j ≤ 49000
        · exact h'
        · have e : j = N := by omega
          subst e
          obtain ⟨A, hA⟩ := test_stable_over_time (mk j (by omega) (ih (by omega))) fun _ _ => rfl
          rw [(hA j (by omega) (Nat.le_refl _)).2] at hm
          cases hm
  obtain ⟨A, hA⟩ := test_stable_over_time (mk (k + m) (Nat.le_refl _) (late _ (Nat.le_refl _)))
    fun _ _ => rfl
  exact ⟨A, fun j h1 h2 => hA j (by omega) h2⟩

end Firefly.Props
