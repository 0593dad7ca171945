import Verif.Lemmas.FakeLong

/-! # A test network that runs for hours -/

namespace Firefly
open Spec
namespace FakeNet

/-- A new device: the numbers it draws next, and when it gives up waiting for a master. -/
theorem boot_facts {i : Nat} (hi : i < 100) {rand junk junk' seeds} {radio : FakeRadio} {s : Node}
    (h : boot (BitVec.ofNat 32 (i + 1)) rand junk junk' seeds = .ok ⟨radio, s⟩) :
    s.rand = rand.rest ∧ s.timers.heartbeat.toNat = i + 5001 + rand 0 % 2000 := by
  unfold boot newNode at h
  obtain ⟨node, hnode, h⟩ := Node.bind_ok h
  obtain ⟨r, _, hnode⟩ := Node.bind_ok hnode
  obtain ⟨ht, -⟩ := step_tick h
  have hi : (BitVec.ofNat 32 (i + 1)).toNat = i + 1 := by
    rw [BitVec.toNat_ofNat]; omega
  have hw : (BitVec.ofNat 32 (i + 1)).toNat + 255000 < 2 ^ 32 := by omega
  generalize hnow : BitVec.ofNat 32 (i + 1) = now at *
  have facts : node.WF ∧ node.tickRun = false ∧ node.state = .slave ∧
      node.timers.heartbeat = now + BitVec.ofNat 32 (5000 + rand 0 % 2000) ∧
      node.rand = rand.rest := by
    cases hnode
    have hwf : (Node.init now rand junk junk').WF := Node.WF.init
    refine ⟨⟨hwf.1, hwf.2, hwf.3⟩, ?_, ?_, ?_, ?_⟩
    all_goals
      simp only [Node.setNumEffects, Node.setNumPalettes, Node.init, Node.beginSlave,
        Node.armSlaveTimeout_eq]
  obtain ⟨f1, f3, f4, f7, f8⟩ := facts
  have hb := Node.timeout_toNat hw (rand 0)
  have key : s = { node with tickRun := true } := by
    refine Node.first_tick f1 f4 f3 ?_ ht
    rw [BitVec.le_def, f7]; omega
  rw [key]
  refine ⟨f8, ?_⟩
  show node.timers.heartbeat.toNat = _
  rw [f7, hb]; omega

/-- The numbers a device draws when it becomes master. -/
theorem take_over_draws {now} {s s' : Node} (h : s.Sound) (hw : now.toNat + 255000 < 2 ^ 32)
    (hs : s.state = .slave) (hm : s'.state = .master)
    (ht : s.tick .host now none now none = .ok s') {p : Nat} (hr : s.rand = upFrom p)
    (hp : p + 8 < 65536) :
    ∃ l p', s'.sent = s.sent ++ l ∧ s'.rand = upFrom p' ∧ p ≤ p' ∧ p' ≤ p + 6 ∧
      (∀ q ∈ l, p + 1 < q.id.toNat ∧ q.id.toNat ≤ p' + 1) ∧ s'.Within now.toNat := by
  obtain ⟨s₁, c1, k1, c2, _⟩ := h.tick ht
  obtain ⟨a, p₁, a1, a2, a3, a4, a5, a6, a7, a8⟩ := c1.draws h.wf rfl hw hr (by omega)
  obtain ⟨b, p₂, b1, b2, b3, b4, b5, b6, b7, b8⟩ := c2.draws k1.wf rfl hw a2 (by omega)
  refine ⟨a ++ b, p₂, by rw [b1, a1, List.append_assoc], b2, by omega, by omega, fun q hq => ?_,
    b8 hm ?_⟩
  · rcases List.mem_append.1 hq with hq | hq
    · have := a6 q hq; omega
    · have := b6 q hq; omega
  · cases e : s₁.state with
    | slave => exact .inl rfl
    | master => exact .inr (a8 e (.inl hs))

/-- The `Tick` in which `A` alone becomes master. -/
theorem Idle.alone {n} {net net' : FakeNet n} (c : Idle net) {A : Fin n}
    (r : Round net net' fun _ => net.air) (hn : net.now.toNat ≤ 50000)
    (hA : (net.node A).timers.heartbeat.toNat < net.now.toNat)
    (ho : ∀ i, i ≠ A → net.now.toNat ≤ (net.node i).timers.heartbeat.toNat)
    (hr : (net.node A).rand = upFrom 1) :
    Fresh net net' ∧ OnlyMaster net' A ∧ (∃ p, Counted net' A p) ∧
      ∀ i, i ≠ A → net'.node i = net.node i := by
  have hw : net.now.toNat + 255000 < 2 ^ 32 := by omega
  have hair : net.air = none := by unfold air; rw [c.packet]; rfl
  have r0 := r
  rw [hair] at r
  have quiet : ∀ i, i ≠ A → net'.node i = net.node i := fun i hi =>
    (c.silent i).sound.slave_quiet (c.silent i).slave (rx := none) (fun _ h => by cases h)
      (BitVec.le_def.2 (ho i hi)) (r.ticks i)
  have s := c.silent A
  have hdl := s.deadline
  have hdelay : Node.takeoverDelay net.now (net.node A).effectChangeSeenAt = 60000 - net.now := by
    rw [s.seen]
    unfold Node.takeoverDelay kChangeEffectInterval
    rw [show net.now - 0 = net.now from BitVec.sub_zero _, if_neg]
    rw [BitVec.lt_def, show (60000 : U32).toNat = 60000 from rfl]
    omega
  have hval : (60000 - net.now : U32).toNat = 60000 - net.now.toNat := by
    rw [BitVec.toNat_sub_of_le (by rw [BitVec.le_def, show (60000 : U32).toNat = 60000 from rfl]; omega)]
    rfl
  obtain ⟨e1, ⟨q, e2, e3⟩, e4, e5, e6⟩ := s.sound.slave_takes_over hw s.slave
    ⟨fun e => by rw [e] at hdl; exact absurd hdl.1 (by simp), BitVec.lt_def.2 hA⟩
    (by rw [hdelay]; intro e; rw [e] at hval; simp at hval; omega) (r.ticks A)
  obtain ⟨l, p, d1, d2, d3, d4, d5, d6⟩ := take_over_draws s.sound hw s.slave e1 (r.ticks A) hr
    (by decide)
  have hl : l = [q] := by
    rw [e3] at d1; exact (List.append_cancel_left d1).symm
  subst hl
  have hid := d5 q (by simp)
  have mem0 : ∀ i, ∀ x ∈ memory (net.node i), x.toNat = 0 := by
    intro i x hx
    unfold memory at hx
    rw [(c.silent i).sent] at hx
    have : x = 0 := by simpa [lastFive] using hx
    rw [this]; rfl
  have ownA : own net net' A = [q] := own_known e3 (by rw [c.packet]; intro _ h; cases h)
  have ownO : ∀ i, i ≠ A → own net net' i = [] := fun i hi =>
    own_known (by rw [quiet i hi]; simp) (by rw [c.packet]; intro _ h; cases h)
  have ids : ∀ i, ∀ q' ∈ own net net' i, i = A ∧ q' = q := by
    intro i q' hq
    by_cases hi : i = A
    · subst hi; rw [ownA] at hq; exact ⟨rfl, List.mem_singleton.1 hq⟩
    · rw [ownO i hi] at hq; cases hq
  have hW : ∀ i, ∀ x ∈ Waiting net net' i, x = q := by
    intro i x hx
    by_cases hi : i = A
    · subst hi
      rw [waiting_eq e3] at hx
      cases hx; rfl
    · rw [waiting_same (by rw [quiet i hi]), (c.silent i).radio] at hx; cases hx
  refine ⟨⟨?_, ?_, ?_, ?_, ?_⟩, fun i => ?_, ⟨p, d2, ?_, ?_, ?_, ?_, ?_⟩, quiet⟩
  · intro i q' hq j hj
    rw [(ids i q' hq).2] at hj
    have := mem0 j _ hj
    omega
  · intro i q' hq x hx
    rw [c.packet] at hx; cases hx
  · intro i q' hq j x hx
    rw [(c.silent j).radio] at hx; cases hx
  · intro i j hij q' hq x hx
    exact absurd ((ids i q' hq).1.trans (ids j x hx).1.symm) hij
  · intro i
    by_cases hi : i = A
    · subst hi; rw [ownA]; simp
    · rw [ownO i hi]; simp
  · by_cases hi : i = A
    · rw [if_pos hi, hi]; exact e1
    · rw [if_neg hi]; show (net'.node i).state = _; rw [quiet i hi]; exact (c.silent i).slave
  · have h4 : (net'.node A).timers.heartbeat.toNat = net.now.toNat + 1000 := by
      rw [e4, Node.add_toNat hw (by decide)]; rfl
    have h5 : (net'.node A).timers.broadcastEffect.toNat = net.now.toNat + 2000 := by
      rw [e5, Node.add_toNat hw (by decide)]; rfl
    unfold Node.sum
    omega
  · rw [r.now]; exact d6
  · intro i x hx
    by_cases hi : i = A
    · subst hi
      rcases memory_append e3 x hx with hx | hx
      · have := mem0 i x hx; omega
      · simp only [List.map_cons, List.map_nil, List.mem_singleton] at hx
        rw [hx]; exact hid.2
    · rw [quiet i hi] at hx
      have := mem0 i x hx; omega
  · intro i x hx
    rcases taken_sent r i with e | e
    · rw [e] at hx; cases hx
    · rw [e] at hx; rw [hW i x hx]; exact hid.2
  · intro x hx
    rcases r.taken with ⟨_, e, _⟩ | ⟨k, q', _, e1, e, _⟩
    · rw [e] at hx; cases hx
    · rw [e] at hx; cases hx; rw [hW k _ e1]; exact hid.2

/-! ### The course -/

/-- Advance the clock, and `Tick`. -/
def go {n} (net : FakeNet n) (t : U32) : FakeNet n :=
  match (net.advanceMillis t).tick fun _ => 1 with
  | .ok net' => net'
  | .error _ => net

/-- The first `Tick` is at 5002 ms, the others follow a millisecond apart. -/
def hourly (n : Nat) (k : Nat) : U32 := if k = 0 then BitVec.ofNat 32 (5002 - n) else 1

/-- The network after `k` `Tick`s, where `f` says by how much the clock is advanced before each. -/
def walk {n} (f : Nat → U32) (net : FakeNet n) : Nat → FakeNet n
  | 0 => net
  | k + 1 => go (walk f net k) (f k)

theorem go_ok {n} {net : FakeNet n} (h : net.Able) (t : U32) :
    (net.advanceMillis t).tick (fun _ => 1) = .ok (go net t) ∧ (go net t).Able := by
  obtain ⟨net', e, k⟩ := tick_able (net := net.advanceMillis t) (draws := fun _ => 1)
    ⟨h.node, h.radio, h.packet⟩
  have : go net t = net' := by unfold go; rw [e]
  rw [this]
  exact ⟨e, k⟩

theorem walk_able {n} {f} {net : FakeNet n} (h : net.Able) (k : Nat) : (walk f net k).Able := by
  induction k with
  | zero => exact h
  | succ k ih => exact (go_ok ih _).2

theorem Course.snoc {n} {net : Nat → FakeNet n} {d N} (c : Course net d N)
    (h1 : ∃ draws, ((net N).advanceMillis (d N)).tick draws = .ok (net (N + 1)))
    (h2 : Fresh ((net N).advanceMillis (d N)) (net (N + 1)))
    (h3 : (net N).getNumMasters = 0 → (net N).now.toNat + (d N).toNat ≤ 50000)
    (h4 : (net N).getNumMasters ≠ 0 → d N = 1)
    (h5 : (net (N + 1)).now.toNat + 255000 < 2 ^ 32) : Course net d (N + 1) := by
  have cases : ∀ k, k < N + 1 → k < N ∨ k = N := fun k hk => by omega
  refine ⟨c.start, fun k hk => ?_, fun k hk => ?_, fun k hk => ?_, fun k hk => ?_, fun k hk => ?_⟩
  · rcases cases k hk with h | rfl
    · exact c.step k h
    · exact h1
  · rcases cases k hk with h | rfl
    · exact c.fresh k h
    · exact h2
  · rcases cases k hk with h | rfl
    · exact c.early k h
    · exact h3
  · rcases cases k hk with h | rfl
    · exact c.pace k h
    · exact h4
  · rcases Nat.lt_or_ge N k with h | h
    · rw [show k = N + 1 by omega]; exact h5
    · exact c.clock k h

theorem only_unique {n} {net : FakeNet n} {A B : Fin n} (h : OnlyMaster net A)
    (hB : (net.node B).state = .master) : B = A := by
  apply Classical.byContradiction
  intro hne
  have : (net.node B).state = if B = A then .master else .slave := h B
  rw [if_neg hne, hB] at this
  cases this

theorem Counted.later {n} {net : FakeNet n} {A p} (c : Counted net A p) {t : U32}
    (ht : net.now.toNat ≤ (net.advanceMillis t).now.toNat) : Counted (net.advanceMillis t) A p :=
  ⟨c.rand, c.sum, c.within.mono ht, c.memory, c.radio, c.packet⟩

/-- A `Tick` in which no device gives up waiting for a master. -/
theorem Idle.wait {n} {net net' : FakeNet n} (c : Idle net) (r : Round net net' fun _ => net.air)
    (ho : ∀ i, net.now.toNat ≤ (net.node i).timers.heartbeat.toNat) :
    Fresh net net' ∧ net'.packet = none ∧ (∀ i, (net'.radio i).sent = none) ∧
      net'.node = net.node := by
  have hair : net.air = none := by unfold air; rw [c.packet]; rfl
  rw [hair] at r
  have quiet : ∀ i, net'.node i = net.node i := fun i =>
    (c.silent i).sound.slave_quiet (c.silent i).slave (rx := none) (fun _ h => by cases h)
      (BitVec.le_def.2 (ho i)) (r.ticks i)
  have own0 : ∀ i, own net net' i = [] := fun i =>
    own_known (by rw [quiet i]; simp) (by rw [c.packet]; intro _ h; cases h)
  have hW : ∀ i, Waiting net net' i = none := fun i => by
    rw [waiting_same (by rw [quiet i]), (c.silent i).radio]
  refine ⟨⟨?_, ?_, ?_, ?_, ?_⟩, ?_, ?_, funext quiet⟩
  · intro i q hq; rw [own0 i] at hq; cases hq
  · intro i q hq; rw [own0 i] at hq; cases hq
  · intro i q hq; rw [own0 i] at hq; cases hq
  · intro i j _ q hq; rw [own0 i] at hq; cases hq
  · intro i; rw [own0 i]; simp
  · rcases r.taken with ⟨_, e, _⟩ | ⟨k, p, _, e, _⟩
    · exact e
    · rw [hW] at e; cases e
  · rcases r.taken with ⟨_, _, e⟩ | ⟨k, p, _, e, _⟩
    · exact e
    · rw [hW] at e; cases e

theorem walk_round {n} {f} {net₀ : FakeNet n} (b : net₀.Booted) {k : Nat}
    (hl : (walk f net₀ k).loss = 0) :
    Round ((walk f net₀ k).advanceMillis (f k)) (walk f net₀ (k + 1)) fun _ =>
      ((walk f net₀ k).advanceMillis (f k)).air := by
  have r := tick_round (go_ok (walk_able (f := f) (booted_able b) k) (f k)).1
  have e : ((walk f net₀ k).advanceMillis (f k)).staged (fun _ => 1) = fun _ =>
      ((walk f net₀ k).advanceMillis (f k)).air := funext fun i => staged_air hl (fun _ => 1) i
  rw [e] at r
  exact r

/-- A network that waits for a master, a millisecond per `Tick`. -/
theorem walk_waits {n} {net₀ : FakeNet n} (hn : n ≤ 99) (b : net₀.Booted) {K : Nat}
    (ho : ∀ i, n + K ≤ (net₀.node i).timers.heartbeat.toNat) (hK : n + K ≤ 50000) :
    Course (walk (fun _ => 1) net₀) (fun _ => 1) K ∧
      (walk (fun _ => 1) net₀ K).now.toNat = n + K ∧
      (walk (fun _ => 1) net₀ K).node = net₀.node ∧ Idle (walk (fun _ => 1) net₀ K) ∧
      ∀ j ≤ K, (walk (fun _ => 1) net₀ j).getNumMasters = 0 := by
  have id0 := b.idle hn
  induction K with
  | zero =>
    have n0 : net₀.now.toNat = n := by rw [b.now, BitVec.toNat_ofNat]; omega
    refine ⟨⟨b, fun k hk => absurd hk (by omega), fun k hk => absurd hk (by omega),
      fun k hk => absurd hk (by omega), fun k hk => absurd hk (by omega), fun k hk => ?_⟩, n0, rfl,
      id0, fun j hj => ?_⟩
    · obtain rfl : k = 0 := by omega
      show net₀.now.toNat + _ < _
      omega
    · obtain rfl : j = 0 := by omega
      exact getNumMasters_zero.2 fun i => by
        show (net₀.node i).state ≠ _
        rw [(id0.silent i).slave]; decide
  | succ K ih =>
    obtain ⟨c, e1, e2, e3, e4⟩ := ih (fun i => by have := ho i; omega) (by omega)
    have hnow : ((walk (fun _ => 1) net₀ K).advanceMillis 1).now.toNat = n + K + 1 := by
      show ((walk (fun _ => 1) net₀ K).now + 1).toNat = _
      rw [Node.add_toNat (c.clock K (Nat.le_refl _)) (by decide), e1]; rfl
    have r := walk_round (f := fun _ => 1) b (k := K) e3.loss
    have id : Idle ((walk (fun _ => 1) net₀ K).advanceMillis 1) := ⟨e3.loss, e3.packet, fun i =>
      ⟨(e3.silent i).1, (e3.silent i).2, (e3.silent i).3, (e3.silent i).4, (e3.silent i).5,
        (e3.silent i).6⟩⟩
    obtain ⟨f1, f2, f3, f4⟩ := id.wait r (fun i => by
      rw [hnow]
      show _ ≤ ((walk (fun _ => 1) net₀ K).node i).timers.heartbeat.toNat
      rw [e2]; have := ho i; omega)
    have hnow1 : (walk (fun _ => 1) net₀ (K + 1)).now.toNat = n + (K + 1) := by
      rw [r.now]; exact hnow
    have hnode : (walk (fun _ => 1) net₀ (K + 1)).node = net₀.node := f4.trans e2
    have m0 : (walk (fun _ => 1) net₀ (K + 1)).getNumMasters = 0 := getNumMasters_zero.2 fun i => by
      rw [hnode, (id0.silent i).slave]; decide
    refine ⟨Course.snoc c ⟨_, (go_ok (walk_able (booted_able b) K) 1).1⟩ f1 (fun _ => ?_)
      (fun h => absurd (e4 K (Nat.le_refl _)) h) (by omega), hnow1, hnode, ⟨?_, f2, fun i => ?_⟩,
      fun j hj => ?_⟩
    · rw [e1]; show n + K + 1 ≤ _; omega
    · rw [r.loss]; exact e3.loss
    · have s := id0.silent i
      exact ⟨by rw [hnode]; exact s.1, by rw [hnode]; exact s.2, by rw [hnode]; exact s.3, f3 i,
        by rw [hnode]; exact s.5, by rw [hnode]; exact s.6⟩
    · rcases Nat.lt_or_ge K j with h | h
      · rw [show j = K + 1 by omega]; exact m0
      · exact e4 j h

/-- A network in which `A` is the first to give up waiting for a master, at `T0`, runs for hours. -/
theorem walk_course {n} {f} {net₀ : FakeNet n} (hn : n ≤ 99) (b : net₀.Booted) {K : Nat}
    (cK : Course (walk f net₀) f K) (mK : ∀ j ≤ K, (walk f net₀ j).getNumMasters = 0)
    (hf : ∀ k, K < k → f k = 1) {T0 : Nat} (hT : (walk f net₀ K).now.toNat + (f K).toNat = T0)
    (hT7 : T0 ≤ 7000) {A : Fin n} (hA : ((walk f net₀ K).node A).timers.heartbeat.toNat < T0)
    (hr : ((walk f net₀ K).node A).rand = upFrom 1)
    (ho : ∀ i, i ≠ A → T0 < ((walk f net₀ K).node i).timers.heartbeat.toNat) {N : Nat}
    (hN : N + 1 ≤ 20000000) :
    Course (walk f net₀) f (K + 1 + N) ∧ (walk f net₀ (K + 1 + N)).now.toNat = T0 + N ∧
      OnlyMaster (walk f net₀ (K + 1 + N)) A ∧ ∃ p, Counted (walk f net₀ (K + 1 + N)) A p := by
  have able := fun k => walk_able (f := f) (booted_able b) k
  have step := fun k => (go_ok (able k) (f k)).1
  have idK := (cK.waiting hn (Nat.le_refl _) mK).1
  have base : Course (walk f net₀) f (K + 1) ∧ (walk f net₀ (K + 1)).now.toNat = T0 ∧
      OnlyMaster (walk f net₀ (K + 1)) A ∧ (∃ p, Counted (walk f net₀ (K + 1)) A p) ∧
      ∀ i, i ≠ A → (walk f net₀ (K + 1)).node i = (walk f net₀ K).node i := by
    have hnow : ((walk f net₀ K).advanceMillis (f K)).now.toNat = T0 := by
      show ((walk f net₀ K).now + f K).toNat = _
      rw [BitVec.toNat_add]; omega
    have id : Idle ((walk f net₀ K).advanceMillis (f K)) := ⟨idK.loss, idK.packet, fun i =>
      ⟨(idK.silent i).1, (idK.silent i).2, (idK.silent i).3, (idK.silent i).4, (idK.silent i).5,
        (idK.silent i).6⟩⟩
    have r := walk_round (f := f) b (k := K) idK.loss
    have hnow1 : (walk f net₀ (K + 1)).now.toNat = T0 := by rw [r.now]; exact hnow
    obtain ⟨h1, h2, h3, h4⟩ := id.alone (A := A) r (by omega) (by rw [hnow]; exact hA)
      (fun i hi => by rw [hnow]; exact Nat.le_of_lt (ho i hi)) hr
    refine ⟨Course.snoc cK ⟨_, step K⟩ h1 (fun _ => by omega)
      (fun h => absurd (mK K (Nat.le_refl _)) h) (by omega), hnow1, h2, h3, h4⟩
  have m1 : (walk f net₀ (K + 1)).getNumMasters ≠ 0 := by
    rw [getNumMasters_one base.2.2.1]; decide
  have mj : ∀ j < K + 1, (walk f net₀ j).getNumMasters = 0 := fun j hj => mK j (by omega)
  induction N with
  | zero => exact ⟨base.1, base.2.1, base.2.2.1, base.2.2.2.1⟩
  | succ N ih =>
    obtain ⟨c, hnow, only, p, cnt⟩ := ih (by omega)
    rw [← Nat.add_assoc]
    generalize hk : K + 1 + N = k at *
    have hmk : (walk f net₀ k).getNumMasters ≠ 0 := by
      rw [getNumMasters_one only]; decide
    have hdk : f k = 1 := hf k (by omega)
    have hclock := c.clock k (Nat.le_refl _)
    have hnow' : ((walk f net₀ k).advanceMillis (f k)).now.toNat = (walk f net₀ k).now.toNat + 1 := by
      show ((walk f net₀ k).now + f k).toNat = _
      rw [hdk, Node.add_toNat hclock (by decide)]; rfl
    have loss : (walk f net₀ k).loss = 0 := c.loss (Nat.le_refl _)
    have r := walk_round (f := f) b (k := k) loss
    have only' : OnlyMaster ((walk f net₀ k).advanceMillis (f k)) A := only
    have calm : Calm ((walk f net₀ k).advanceMillis (f k)) (walk f net₀ (k + 1)) A := by
      by_cases h1 : k = K + 1
      · subst h1
        obtain ⟨B, st, _⟩ := c.appears hn (k := K + 1) (Nat.le_refl _) m1 mj
        have hB := only_unique only st.master
        subst hB
        have st' : Start ((walk f net₀ (K + 1)).advanceMillis (f (K + 1))) (walk f net₀ (K + 1)).now.toNat B :=
          ⟨st.1, st.2, st.3, st.4, st.5, st.6, st.7⟩
        refine st'.calm only' r (fun i hi => ?_) (by omega)
        show _ ≤ ((walk f net₀ (K + 1)).node i).timers.heartbeat.toNat
        have := ho i hi
        rw [base.2.2.2.2 i hi]
        omega
      · obtain ⟨j, rfl⟩ : ∃ j, k = K + 1 + 1 + j := ⟨k - (K + 2), by omega⟩
        obtain ⟨_, ⟨hj, B, x, st, _⟩ | ⟨B, st⟩⟩ := c.elects hn (k₀ := K + 1) m1 mj (j := j) (by omega)
        · have hB := only_unique only st.master
          subst hB
          have st' : Contest ((walk f net₀ (K + 1 + 1 + j)).advanceMillis (f (K + 1 + 1 + j)))
              (walk f net₀ (K + 1)).now.toNat B x :=
            ⟨st.1, st.2, st.3, st.4, st.5, st.6, st.7, st.8, st.9, st.10⟩
          exact st'.calm only' r (by rw [base.2.1]; omega) (by omega)
        · have hB : B = A := by
            have := st.only B
            rw [if_pos rfl] at this
            exact only_unique only this
          subst hB
          have st' : Stable ((walk f net₀ (K + 1 + 1 + j)).advanceMillis (f (K + 1 + 1 + j))) B
              (walk f net₀ (K + 1 + 1 + j)).now.toNat := by
            obtain ⟨a1, a2, a3, a4, a5, a6, s⟩ := st
            exact ⟨a1, a2, a3, a4, a5, a6, s.1, s.2, s.3, s.4, s.5, s.6, s.7, s.8, s.9, s.10, s.11,
              s.12, s.13, s.14, s.15, s.16⟩
          exact st'.calm hn r hnow' (by omega)
    have hp : p + 8 < 65536 := by
      have h1 := cnt.sum
      have h2 := cnt.within
      unfold Node.sum at h1
      have := h2.beat
      have := h2.change
      have := h2.bcast
      omega
    obtain ⟨f1, f2, f3⟩ := calm.fresh (cnt.later (by omega)) hp r (by omega)
    have hnow2 : (walk f net₀ (k + 1)).now.toNat = (walk f net₀ k).now.toNat + 1 := by
      rw [r.now]; exact hnow'
    exact ⟨Course.snoc c ⟨_, step k⟩ f1 (fun h => absurd h hmk) (fun _ => hdk) (by omega),
      by omega, f2, f3⟩

/-- Random numbers that let `A` be the first to give up waiting for a master, at 5002 ms plus its
index. -/
theorem first_exists {n : Nat} (A : Fin n) (hn : n ≤ 99) :
    ∃ net₀ : FakeNet n, net₀.Booted ∧ (net₀.node A).rand = upFrom 1 ∧
      (net₀.node A).timers.heartbeat.toNat = A.val + 5001 ∧
      ∀ i, i ≠ A → 7000 ≤ (net₀.node i).timers.heartbeat.toNat := by
  let rand : Fin n → Rand := fun i => if i = A then upFrom 0 else fun _ => 1999
  let junk : PType × Vector U8 58 := (.heartbeat, Vector.replicate 58 0)
  have ex : ∀ i : Fin n, ∃ d : FakeDevice,
      boot (BitVec.ofNat 32 (i.val + 1)) (rand i) junk junk ⟨0, 0, 0⟩ = .ok d := by
    intro i
    obtain ⟨s, e, k⟩ := newNode_able (BitVec.ofNat 32 (i.val + 1)) (rand i) junk junk ⟨0, 0, 0⟩
    obtain ⟨d, hd, _⟩ := device_able (r := .init) (now := BitVec.ofNat 32 (i.val + 1)) k
      (fun p hp => by cases hp) (fun p hp => by cases hp)
    exact ⟨d, by simp only [boot, e, bind, Except.bind, hd]⟩
  let dev : Fin n → FakeDevice := fun i => Classical.choose (ex i)
  have hdev : ∀ i, boot (BitVec.ofNat 32 (i.val + 1)) (rand i) junk junk ⟨0, 0, 0⟩ = .ok (dev i) :=
    fun i => Classical.choose_spec (ex i)
  let net₀ : FakeNet n := ⟨BitVec.ofNat 32 n, fun i => (dev i).radio, fun i => (dev i).node, none, 0⟩
  have b : net₀.Booted := ⟨rfl, fun i => ⟨rand i, junk, junk, ⟨0, 0, 0⟩, hdev i⟩, rfl, rfl⟩
  have facts : ∀ i : Fin n, (dev i).node.rand = (rand i).rest ∧
      (dev i).node.timers.heartbeat.toNat = i.val + 5001 + rand i 0 % 2000 :=
    fun i => boot_facts (by omega) (hdev i)
  have rA : rand A = upFrom 0 := if_pos rfl
  refine ⟨net₀, b, ?_, ?_, fun i hi => ?_⟩
  · show (dev A).node.rand = _
    rw [(facts A).1, rA]
    exact upFrom_rest 0
  · show (dev A).node.timers.heartbeat.toNat = _
    rw [(facts A).2, rA]
    rfl
  · show _ ≤ ((dev i).node.timers.heartbeat).toNat
    have : rand i = fun _ => 1999 := if_neg hi
    rw [(facts i).2, this]
    show _ ≤ _ + 1999 % 2000
    omega

/-- In every network of up to 99 devices that has any, the first device can be the only master for
five and a half hours. -/
theorem hours_exist {n : Nat} (h0 : 0 < n) (hn : n ≤ 99) :
    ∃ net₀ : FakeNet n, ∀ N, N + 1 ≤ 20000000 →
      Course (walk (hourly n) net₀) (hourly n) (N + 1) ∧
        (walk (hourly n) net₀ (N + 1)).now.toNat = 5002 + N ∧
        OnlyMaster (walk (hourly n) net₀ (N + 1)) ⟨0, h0⟩ := by
  obtain ⟨net₀, b, h1, h2, h3⟩ := first_exists ⟨0, h0⟩ hn
  have n0 : net₀.now.toNat = n := by rw [b.now, BitVec.toNat_ofNat]; omega
  have f0 : (hourly n 0).toNat = 5002 - n := by
    show (if 0 = 0 then _ else _ : U32).toNat = _
    rw [if_pos rfl, BitVec.toNat_ofNat]
    omega
  have id0 := b.idle hn
  have c0 : Course (walk (hourly n) net₀) (hourly n) 0 :=
    ⟨b, fun k hk => absurd hk (by omega), fun k hk => absurd hk (by omega),
      fun k hk => absurd hk (by omega), fun k hk => absurd hk (by omega), fun k hk => by
        obtain rfl : k = 0 := by omega
        show net₀.now.toNat + _ < _
        omega⟩
  refine ⟨net₀, fun N hN => ?_⟩
  have := walk_course hn b (A := ⟨0, h0⟩) (T0 := 5002) c0 (fun j hj => ?_)
    (fun k hk => if_neg (by omega)) (by rw [f0]; show net₀.now.toNat + _ = _; omega) (by omega)
    (by show (net₀.node _).timers.heartbeat.toNat < _; rw [h2]; exact Nat.lt_succ_self _) h1
    (fun i hi => Nat.lt_of_lt_of_le (by omega) (h3 i hi)) hN
  · rw [show 0 + 1 + N = N + 1 by omega] at this
    exact ⟨this.1, this.2.1, this.2.2.1⟩
  · obtain rfl : j = 0 := by omega
    exact getNumMasters_zero.2 fun i => by
      show (net₀.node i).state ≠ _
      rw [(id0.silent i).slave]; decide

/-- The same for every device and at a millisecond per `Tick` from the beginning. -/
theorem slow_exist {n : Nat} (A : Fin n) (hn : n ≤ 99) :
    ∃ net₀ : FakeNet n,
      (∀ j, j + n ≤ A.val + 5001 → (walk (fun _ => 1) net₀ j).getNumMasters = 0) ∧
      ∀ k, A.val + 5002 ≤ k + n → k ≤ 19990000 →
        Course (walk (fun _ => 1) net₀) (fun _ => 1) k ∧
          (walk (fun _ => 1) net₀ k).now.toNat = n + k ∧
          OnlyMaster (walk (fun _ => 1) net₀ k) A := by
  obtain ⟨net₀, b, h1, h2, h3⟩ := first_exists A hn
  obtain ⟨c, e1, e2, e3, e4⟩ := walk_waits hn b (K := A.val + 5001 - n) (fun i => by
    by_cases hi : i = A
    · rw [hi, h2]; omega
    · have := h3 i hi; have := A.isLt; omega) (by omega)
  refine ⟨net₀, fun j hj => e4 j (by omega), fun k hk hk' => ?_⟩
  obtain ⟨N, rfl⟩ : ∃ N, k = A.val + 5001 - n + 1 + N := ⟨k - (A.val + 5001 - n + 1), by omega⟩
  have := walk_course hn b (A := A) (T0 := A.val + 5002) c e4 (fun _ _ => rfl)
    (by rw [e1]; show _ + 1 = _; omega) (by omega)
    (by rw [e2, h2]; omega) (by rw [e2]; exact h1)
    (fun i hi => by rw [e2]; have := h3 i hi; omega) (N := N) (by omega)
  exact ⟨this.1, this.2.1.trans (by omega), this.2.2.1⟩

end FakeNet
end Firefly
