import Verif.Lemmas.FakeSolo
import Verif.Spec.FakeHeal

/-! # Courses in which the network of the integration tests recovers -/

namespace Firefly
open Spec FakeNet

namespace Node

/-- A master sends its next heartbeat in time. -/
theorem TickCase.beats {plat now rx} {s s' : Node} (h : TickCase plat now rx s s')
    (hw : now.toNat + 255000 < 2 ^ 32) {B : Nat} (hB : now.toNat + 1000 ≤ B)
    (hs : s.state = .master → 1000 ≤ s.timers.heartbeat.toNat ∧ s.timers.heartbeat.toNat ≤ B) :
    s'.state = .master → 1000 ≤ s'.timers.heartbeat.toNat ∧ s'.timers.heartbeat.toNat ≤ B := by
  obtain ⟨a1, _, _⟩ := sums hw
  have arm : 1000 ≤ (now + 1000).toNat ∧ (now + 1000).toNat ≤ B := by omega
  cases h with
  | slaveQuiet | slaveEffect | slaveControl | other => exact hs
  | masterQuiet | «repeat» => exact hs
  | change => unfold afterChange; exact hs
  | electionWon | masterEffect | masterControl => exact hs
  | beat | takeOver => exact fun _ => arm
  | slaveHeartbeat _ _ e | slaveClaim _ _ e =>
    rw [armSlaveTimeout_eq]
    intro e'
    have e' : s.state = .master := e'
    rw [e] at e'; cases e'
  | electionLost | masterClaim =>
    unfold afterBeginSlave
    rw [armSlaveTimeout_eq]
    exact fun e => by cases e

theorem tick_beats {now rx} {s s' : Node} (h : s.Sound0)
    (ht : s.tick .host now rx now rx = .ok s') (hw : now.toNat + 255000 < 2 ^ 32) {B : Nat}
    (hB : now.toNat + 1000 ≤ B)
    (hs : s.state = .master → 1000 ≤ s.timers.heartbeat.toNat ∧ s.timers.heartbeat.toNat ≤ B) :
    s'.state = .master → 1000 ≤ s'.timers.heartbeat.toNat ∧ s'.timers.heartbeat.toNat ≤ B := by
  obtain ⟨s₁, c1, k1, e | ⟨s₂, c2, k2, e⟩⟩ := h.tick ht
  · subst e; exact c1.beats hw hB hs
  · subst e; exact c2.beats hw hB (c1.beats hw hB hs)

end Node

namespace FakeNet
open Node

theorem reset_able {n} {l : List (Fin n)} {net net' : FakeNet n} (h : Resets l net net')
    (a : net.Able) : net'.Able := by
  induction h with
  | nil => exact a
  | cons rand junk junk' seeds h _ ih =>
    obtain ⟨_, e, k⟩ := step_able a (.reinit _ rand junk junk' seeds)
    have : FakeNet.reinitNode _ rand junk junk' seeds _ = _ := e
    rw [h] at this; cases this
    exact ih k

/-- The network before a `Tick` of the recovery. -/
abbrev nxt {n} (net : FakeNet n) : FakeNet n := (net.setPacketLoss 0).advanceMillis 1

theorem Mine.to {n} {net : FakeNet n} {i q} (h : Mine net i q) : Mine (nxt net) i q :=
  ⟨h.1, h.2, h.3⟩

theorem Mine.of {n} {net : FakeNet n} {i q} (h : Mine (nxt net) i q) : Mine net i q :=
  ⟨h.1, h.2, h.3⟩

theorem Pending.to {n} {net : FakeNet n} {i q} (h : Pending net i q) : Pending (nxt net) i q :=
  ⟨h.1.to, h.2⟩

theorem Pending.of {n} {net : FakeNet n} {i q} (h : Pending (nxt net) i q) : Pending net i q :=
  ⟨h.1.of, h.2⟩

theorem Clean.to {n} {net : FakeNet n} {t s₀ cur} (c : Clean net t s₀ cur) :
    Clean (nxt net) t s₀ cur := by
  refine ⟨rfl, c.sound, ⟨c.able.node, c.able.radio, c.able.packet⟩, c.beat, c.since, c.recent,
    fun i q hq => ?_, ?_⟩
  · rcases c.slot i q hq with h | h
    · exact .inl h
    · exact .inr h.to
  · rcases c.air with h | ⟨q, h1, h | ⟨B, h2, h3⟩⟩
    · exact .inl h
    · exact .inr ⟨q, h1, .inl h⟩
    · exact .inr ⟨q, h1, .inr ⟨B, h2.to, h3⟩⟩

theorem Dispute.to {n} {net : FakeNet n} {t s₀ x s₁ B} (c : Dispute net t s₀ x s₁ B) :
    Dispute (nxt net) t s₀ x s₁ B :=
  ⟨c.clean.to, c.master, c.slaves, fun i hi h => by
    obtain ⟨q, hq⟩ := c.others i hi h
    exact ⟨q, hq.to⟩, fun i q h => c.good i q h.of, c.time, c.since, c.rival⟩

theorem Budget.to {n} {net : FakeNet n} {s₀ s₁} (b : Budget net s₀ s₁) :
    Budget (nxt net) s₀ s₁ := by
  have : tot (hot (nxt net) s₁) ≤ tot (hot net s₁) := tot_le fun i => hot_mono fun h hh => by
    refine ⟨h, ?_⟩
    rcases hh with hh | ⟨q, h1, h2⟩
    · exact .inl hh
    · exact .inr ⟨q, h1.of, h2⟩
  have := Nat.mul_le_mul_left (n + 2) this
  unfold Budget at *
  omega

theorem Solo.to {n} {net : FakeNet n} {A t} (c : Solo net A t) : Solo (nxt net) A t := by
  obtain ⟨s₀, cur, L, h, c⟩ := c
  refine ⟨s₀, cur, L, h, c.clean.to, c.master, c.slaves, c.heard, c.beat, c.past, ?_⟩
  rcases c.heart with hm | ⟨k1, k2, k3, q, k4, k5, k6⟩
  · exact .inl hm
  · exact .inr ⟨k1, k2, k3, q, k4, k5.to, k6⟩

/-- What a `Tick` without loss does to any number of masters. -/
theorem Clean.tick {n} {net net' : FakeNet n} {t s₀ cur} (c : Clean net t s₀ cur) (hn : n ≤ 900)
    (r : Round net net' fun _ => net.air) (f : Fresh net net') (ha : net'.Able)
    (ht : net.now.toNat = t + 1) (hw : net.now.toNat + 255000 < 2 ^ 32) :
    (∃ s₀' cur', Clean net' (t + 1) s₀' cur') ∧
    ((∃ i, (net.node i).state = .master) → ∃ i, (net'.node i).state = .master) ∧
    ((∀ i, (net.node i).state = .slave) → ∀ i, Idle2 net.now (net.node i) (net'.node i)
      (own net net' i)) := by
  have known : ∀ {s₀ cur}, Clean net t s₀ cur →
      (∀ q ∈ net.packet, q.id ∈ cur ∧ rel (fun i => (net.radio i).sent) q.id + t ≤ s₀ + n) →
      (net.packet = none → cur = none) → (∃ s₀' cur', Clean net' (t + 1) s₀' cur') ∧
        ((∃ i, (net.node i).state = .master) → ∃ i, (net'.node i).state = .master) ∧
        ((∀ i, (net.node i).state = .slave) → ∀ i, Idle2 net.now (net.node i) (net'.node i)
          (own net net' i)) := by
    intro s₀ cur c hk hc
    obtain ⟨hI, _, _, hcl⟩ := c.known hn r f ha ht hw hk hc
    exact ⟨⟨_, _, hcl⟩, fun ⟨i, hi⟩ => ⟨i, (hI i).states.1 hi⟩, fun _ => hI⟩
  rcases c.air with ⟨h1, h2⟩ | ⟨q, hp, ⟨hq, hq'⟩ | ⟨B, hB, hs⟩⟩
  · exact known (c.rest h1).1 (fun q hq => by rw [h1] at hq; cases hq) fun _ => rfl
  · exact known c (fun p hp' => by rw [hp] at hp'; cases hp'; exact ⟨hq, hq'⟩)
      (fun e => by rw [hp] at e; cases e)
  · obtain ⟨p, _, _, hI, _, _, _, _, hcl⟩ := c.new r f ha ht hw hp hB hs
    refine ⟨⟨_, _, hcl⟩, fun _ => ⟨B, hI.states.1 hB.master⟩, fun h => ?_⟩
    have := h B
    rw [hB.master] at this; cases this

end FakeNet

section
variable {n : Nat} {net mid : Nat → FakeNet n} {R : Nat → List (Fin n)} {loss : Nat → Int}
  {d : Nat → U32} {draws : Nat → Fin n → Nat} {K N : Nat}

namespace Spec.AnyCourse

/-- What else is true of all devices after any course. -/
theorem ready (c : AnyCourse net mid R loss d draws N) (hn : n ≤ 99) {k : Nat} (hk : k ≤ N) :
    (net k).Able ∧ (∀ i, ((net k).node i).Sound) ∧ ∀ i, ((net k).node i).state = .master →
      1000 ≤ ((net k).node i).timers.heartbeat.toNat ∧
        ((net k).node i).timers.heartbeat.toNat ≤ (net k).now.toNat + 1000 := by
  induction k with
  | zero =>
    have b := c.start.idle hn
    refine ⟨booted_able c.start, fun i => (b.silent i).sound, fun i e => ?_⟩
    rw [(b.silent i).slave] at e; cases e
  | succ k ih =>
    obtain ⟨a1, a2, a3⟩ := ih (by omega)
    have hw := c.clock k (by omega)
    have facts := (c.reset k (by omega)).facts (by omega)
    have r := tick_round (c.step k (by omega))
    obtain ⟨t1, t2⟩ := c.now (k := k) (by omega)
    have hs : ∀ i, ((mid k).node i).Sound0 := fun i => by
      rcases facts.2.2.2.2 i with ⟨_, e⟩ | ⟨_, e⟩
      · rw [e]; exact (a2 i).zero
      · exact e.sound
    have hnow : (((mid k).setPacketLoss (loss k)).advanceMillis (d k)).now.toNat + 255000 < 2 ^ 32 := by
      rw [t2]; omega
    refine ⟨?_, fun i => (hs i).after (r.ticks i), fun i => ?_⟩
    · have m := reset_able (c.reset k (by omega)) a1
      have h : (((mid k).setPacketLoss (loss k)).advanceMillis (d k)).Able :=
        ⟨m.node, m.radio, m.packet⟩
      obtain ⟨x, e1, e2⟩ := tick_able (draws := draws k) h
      rw [c.step k (by omega)] at e1; cases e1
      exact e2
    · refine Node.tick_beats (hs i) (r.ticks i) hnow (by rw [t2]; exact Nat.le_refl _) fun e => ?_
      have e : ((mid k).node i).state = .master := e
      show 1000 ≤ ((mid k).node i).timers.heartbeat.toNat ∧
        ((mid k).node i).timers.heartbeat.toNat ≤ _
      rcases facts.2.2.2.2 i with ⟨_, e'⟩ | ⟨_, e'⟩
      · rw [e'] at e ⊢; have := a3 i e; omega
      · rw [e'.slave] at e; cases e

end Spec.AnyCourse

namespace Spec.HealCourse

/-- A `Tick` of the recovery. -/
theorem round (c : HealCourse net mid R loss d draws K N) {k : Nat} (hK : K ≤ k) (hk : k < N)
    (ha : (net k).Able) :
    Round (nxt (net k)) (net (k + 1)) (fun _ => (nxt (net k)).air) ∧ (net (k + 1)).Able ∧
      (nxt (net k)).now.toNat = (net k).now.toNat + 1 ∧
      (net (k + 1)).now.toNat = (net k).now.toNat + 1 ∧
      (nxt (net k)).now.toNat + 255000 < 2 ^ 32 := by
  obtain ⟨z, e⟩ := c.step k hK hk
  have r := tick_round e
  have h : (nxt (net k)).Able := ⟨ha.node, ha.radio, ha.packet⟩
  obtain ⟨x, e1, e2⟩ := tick_able (draws := z) h
  rw [e] at e1; cases e1
  have w1 := c.clock k hK (by omega)
  have w2 := c.clock (k + 1) (by omega) (by omega)
  have e : (nxt (net k)).now.toNat = (net k).now.toNat + 1 := by
    show ((net k).now + 1).toNat = _
    rw [BitVec.toNat_add]
    have : (1 : U32).toNat = 1 := rfl
    omega
  have e' : (net (k + 1)).now.toNat = (net k).now.toNat + 1 := by rw [r.now, e]
  refine ⟨?_, e2, e, e', by omega⟩
  have hst : (nxt (net k)).staged z = fun _ => (nxt (net k)).air := by
    funext i
    exact staged_air rfl z i
  rw [← hst]
  exact r

theorem clean (c : HealCourse net mid R loss d draws K N) (hn : n ≤ 99) {k : Nat} (hK : K ≤ k)
    (hk : k ≤ N) : ∃ s₀ cur, Clean (nxt (net k)) (net k).now.toNat s₀ cur := by
  obtain ⟨q, rfl⟩ : ∃ q, k = K + q := ⟨k - K, by omega⟩
  clear hK
  induction q with
  | zero =>
    obtain ⟨a1, a2, a3⟩ := c.before.ready hn (Nat.le_refl K)
    refine ⟨(net K).now.toNat, none, rfl, a2, ⟨a1.node, a1.radio, a1.packet⟩, a3, Nat.le_refl _,
      fun x hx => (by cases hx), fun i q hq => ?_, .inl c.quiet⟩
    have hq : q ∈ ((net K).radio i).sent := hq
    rw [c.quiet.2 i] at hq; cases hq
  | succ q ih =>
    obtain ⟨s₀, cur, cl⟩ := ih (by omega)
    have ha : (net (K + q)).Able := ⟨cl.able.node, cl.able.radio, cl.able.packet⟩
    obtain ⟨r, ha', t1, t2, hw⟩ := c.round (k := K + q) (by omega) (by omega) ha
    obtain ⟨⟨s₀', cur', h⟩, _⟩ := cl.tick (by omega) r (c.fresh (K + q) (by omega) (by omega)) ha'
      t1 hw
    rw [← t2] at h
    exact ⟨s₀', cur', h.to⟩

/-- All that is known of a `Tick` of the recovery. -/
theorem facts (c : HealCourse net mid R loss d draws K N) (hn : n ≤ 99) {k : Nat} (hK : K ≤ k)
    (hk : k < N) :
    Round (nxt (net k)) (net (k + 1)) (fun _ => (nxt (net k)).air) ∧
      Fresh (nxt (net k)) (net (k + 1)) ∧ (net (k + 1)).Able ∧
      (nxt (net k)).now.toNat = (net k).now.toNat + 1 ∧
      (net (k + 1)).now.toNat = (net k).now.toNat + 1 ∧
      (nxt (net k)).now.toNat + 255000 < 2 ^ 32 := by
  obtain ⟨s₀, cur, cl⟩ := c.clean hn hK (by omega)
  obtain ⟨r, ha', t1, t2, hw⟩ := c.round hK hk ⟨cl.able.node, cl.able.radio, cl.able.packet⟩
  exact ⟨r, c.fresh k hK hk, ha', t1, t2, hw⟩

theorem time (c : HealCourse net mid R loss d draws K N) (hn : n ≤ 99) {k : Nat} (hK : K ≤ k)
    (q : Nat) (hq : k + q ≤ N) : (net (k + q)).now.toNat = (net k).now.toNat + q := by
  induction q with
  | zero => rfl
  | succ q ih =>
    obtain ⟨_, _, _, _, t2, _⟩ := c.facts hn (k := k + q) (by omega) (by omega)
    rw [← Nat.add_assoc, t2, ih (by omega)]
    omega

/-- Masters do not all resign. -/
theorem some (c : HealCourse net mid R loss d draws K N) (hn : n ≤ 99) {k : Nat} (hK : K ≤ k)
    (h : ∃ i, ((net k).node i).state = .master) (q : Nat) (hq : k + q ≤ N) :
    ∃ i, ((net (k + q)).node i).state = .master := by
  induction q with
  | zero => exact h
  | succ q ih =>
    obtain ⟨s₀, cur, cl⟩ := c.clean hn (k := k + q) (by omega) (by omega)
    obtain ⟨r, f, ha', t1, t2, hw⟩ := c.facts hn (k := k + q) (by omega) (by omega)
    exact (cl.tick (by omega) r f ha' t1 hw).2.1 (ih (by omega))

/-- Without a master, one appears in 7 s. -/
theorem appears (c : HealCourse net mid R loss d draws K N) (hn : n ≤ 99) (h0 : 0 < n) {k : Nat}
    (hK : K ≤ k) (hk : k ≤ N) (ht : (net K).now.toNat + 7000 ≤ (net k).now.toNat) :
    ∃ i, ((net k).node i).state = .master := by
  apply Classical.byContradiction
  intro hno
  have hall : ∀ q, K + q ≤ k → ∀ i, ((net (K + q)).node i).state = .slave := by
    intro q hq i
    cases e : ((net (K + q)).node i).state with
    | slave => rfl
    | master =>
      have := c.some hn (k := K + q) (by omega) ⟨i, e⟩ (k - (K + q)) (by omega)
      rw [show K + q + (k - (K + q)) = k by omega] at this
      exact absurd this hno
  have hsame : ∀ q, K + q ≤ k → ∀ i, (net (K + q)).node i = (net K).node i := by
    intro q
    induction q with
    | zero => exact fun _ _ => rfl
    | succ q ih =>
      intro hq i
      obtain ⟨s₀, cur, cl⟩ := c.clean hn (k := K + q) (by omega) (by omega)
      obtain ⟨r, f, ha', t1, t2, hw⟩ := c.facts hn (k := K + q) (by omega) (by omega)
      have hI := (cl.tick (by omega) r f ha' t1 hw).2.2 (hall q (by omega)) i
      have := (hI.states.2 (hall (q + 1) hq i)).1
      exact this.trans (ih (by omega) i)
  have al := c.before.alert hn (Nat.le_refl K)
  let i : Fin n := ⟨0, h0⟩
  have hs := hall 0 (by omega) i
  have near := al.near i hs
  obtain ⟨q, rfl⟩ : ∃ q, k = K + q + 1 := ⟨k - K - 1, by
    have : k ≠ K := by rintro rfl; omega
    omega⟩
  obtain ⟨s₀, cur, cl⟩ := c.clean hn (k := K + q) (by omega) (by omega)
  obtain ⟨r, f, ha', t1, t2, hw⟩ := c.facts hn (k := K + q) (by omega) (by omega)
  have hI := (cl.tick (by omega) r f ha' t1 hw).2.2 (hall q (by omega)) i
  obtain ⟨s₁, l₁, l₂, c1, c2, _⟩ := hI
  have e1 := c2.states.2 (hall (q + 1) (by omega) i)
  have hd : Node.Due (nxt (net (K + q))).now ((nxt (net (K + q))).node i).timers.heartbeat := by
    have e : (nxt (net (K + q))).node i = (net K).node i := hsame q (by omega) i
    rw [e]
    refine (due_iff ?_).2 (by omega)
    have := al.armed i hs
    omega
  cases c1 with
  | slave _ e => exact e hd
  | takes _ _ _ _ e =>
    have : ((net (K + q + 1)).node i).state = .slave := hall (q + 1) (by omega) i
    rw [e1.1, e] at this; cases this
  | acts _ _ e =>
    have := hall q (by omega) i
    have e : ((net (K + q)).node i).state = .master := e
    rw [e] at this; cases this

/-- A device that does not know what is on its way hears a master. -/
theorem speaks (c : HealCourse net mid R loss d draws K N) (hn : n ≤ 99) {k : Nat} (hK : K ≤ k)
    (hk : k ≤ N) {q : Packet} (hq : (net k).packet = .some q) {i : Fin n}
    (hi : q.id ∉ memory ((net k).node i)) : ∃ B, Speaks (nxt (net k)) B q ∧ i ≠ B := by
  obtain ⟨s₀, cur, cl⟩ := c.clean hn hK hk
  have hq' : (nxt (net k)).packet = .some q := hq
  rcases cl.air with ⟨h, _⟩ | ⟨q', h, ⟨hx, _⟩ | ⟨B, hB, hs⟩⟩
  · rw [h] at hq'; cases hq'
  · rw [h] at hq'; cases hq'
    obtain ⟨l, S, e1, e2, e3⟩ := cl.recent _ hx i
    exact absurd (memory_recent e1 e3.le e2) hi
  · rw [h] at hq'; cases hq'
    refine ⟨B, ⟨h, hB, hs⟩, ?_⟩
    rintro rfl
    obtain ⟨l, e⟩ := hB.last
    exact hi (memory_recent e (by simp) (by simp))

/-- The winner stays. -/
theorem stays (c : HealCourse net mid R loss d draws K N) (hn : n ≤ 99) {k : Nat} (hK : K ≤ k)
    {A : Fin n} (hex : ∃ j : Fin n, j ≠ A) (h : Solo (net k) A (net k).now.toNat) (q : Nat)
    (hq : k + q ≤ N) : Solo (net (k + q)) A (net (k + q)).now.toNat := by
  induction q with
  | zero => exact h
  | succ q ih =>
    obtain ⟨r, f, ha', t1, t2, hw⟩ := c.facts hn (k := k + q) (by omega) (by omega)
    have := (ih (by omega)).to.tick (by omega) hex r f ha' t1 hw
    rw [← t2] at this
    exact this

theorem rivalry {net net' : FakeNet n} (h : ¬ TellsEffect net net') :
    ∀ i, ∀ p ∈ own (nxt net) net' i, Rivalry p := by
  intro i p hp
  have hp : p ∈ own net net' i := hp
  by_cases h1 : p.type = .heartbeat
  · exact .inl h1
  · by_cases h2 : p.type = .claimMaster
    · exact .inr h2
    · exact absurd ⟨i, p, hp, h1, h2⟩ h

/-- A heartbeat that is heard settles who is master. -/
theorem resolves (c : HealCourse net mid R loss d draws K N) (hn : n ≤ 30) {k : Nat} (hK : K ≤ k)
    {q : Packet} (hq : (net k).packet = .some q) (hty : q.type = .heartbeat) {i : Fin n}
    (hi : q.id ∉ memory ((net k).node i)) {m : Nat} (hm : k + 1 + (n + 1) * (n + 2) ≤ m)
    (hmN : m ≤ N)
    (hno : ∀ j, k ≤ j → j ≤ k + (n + 1) * (n + 2) → ¬ TellsEffect (net j) (net (j + 1))) :
    ∃ A, ∀ j, k + 1 + (n + 1) * (n + 2) ≤ j → j ≤ N → Solo (net j) A (net j).now.toNat := by
  have hn' : n ≤ 99 := by omega
  have hsq : (n + 1) * (n + 2) ≤ 31 * 32 := Nat.mul_le_mul (by omega) (by omega)
  obtain ⟨B, sp, hB⟩ := c.speaks hn' hK (by omega) hq hi
  have hex := fun A : Fin n => two hB A
  have key : ∀ p, p ≤ (n + 1) * (n + 2) →
      (∃ A, ∃ p' ≤ p, Solo (net (k + 1 + p')) A (net (k + 1 + p')).now.toNat) ∨
      ∃ s₀ x B', Dispute (net (k + 1 + p)) (net (k + 1 + p)).now.toNat s₀ x
        (net (k + 1)).now.toNat B' ∧ Budget (net (k + 1 + p)) s₀ (net (k + 1)).now.toNat := by
    intro p
    induction p with
    | zero =>
      intro _
      obtain ⟨s₀, cur, cl⟩ := c.clean hn' hK (by omega)
      obtain ⟨r, f, ha', t1, t2, hw⟩ := c.facts hn' hK (by omega)
      rcases cl.begin r f ha' t1 hw sp hty (rivalry (hno k (by omega) (by omega))) with
        ⟨A, h⟩ | ⟨s₀', x', B', h1, h2⟩
      · left
        rw [← t2] at h
        exact ⟨A, 0, Nat.le_refl _, h.solo⟩
      · right
        rw [← t2] at h1 h2
        exact ⟨s₀', x', B', h1, h2⟩
    | succ p ih =>
      intro hp
      rcases ih (by omega) with ⟨A, p', h1, h2⟩ | ⟨s₀, x, B', h1, h2⟩
      · exact .inl ⟨A, p', by omega, h2⟩
      · obtain ⟨r, f, ha', t1, t2, hw⟩ := c.facts hn' (k := k + 1 + p) (by omega) (by omega)
        rcases h1.to.tick h2.to (by omega) r f ha' t1 hw
            (rivalry (hno (k + 1 + p) (by omega) (by omega))) with ⟨A, h⟩ | ⟨s₀', x', B'', h1, h2⟩
        · rw [← t2] at h
          exact .inl ⟨A, p + 1, Nat.le_refl _, h.solo⟩
        · rw [← t2] at h1
          exact .inr ⟨s₀', x', B'', h1, h2⟩
  rcases key ((n + 1) * (n + 2)) (Nat.le_refl _) with ⟨A, p', h1, h2⟩ | ⟨s₀, x, B', h1, h2⟩
  · refine ⟨A, fun j hj hjN => ?_⟩
    have := c.stays hn' (k := k + 1 + p') (by omega) (hex A) h2 (j - (k + 1 + p')) (by omega)
    rw [show k + 1 + p' + (j - (k + 1 + p')) = j by omega] at this
    exact this
  · have := h1.soon h2
    rw [c.time hn' (k := k + 1) (by omega) ((n + 1) * (n + 2)) (by omega)] at this
    omega

end Spec.HealCourse
end
end Firefly
