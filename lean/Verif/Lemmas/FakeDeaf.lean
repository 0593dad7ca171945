import Verif.Lemmas.FakeLossCourse
import Verif.Lemmas.FakeSafe

/-! # Devices of the test network that hear nothing -/

namespace Firefly
open Spec FakeNet

namespace Node

/-- A slave waits at least until the clock shows 5 s. -/
theorem TickCase.armed {plat now rx} {s s' : Node} (h : TickCase plat now rx s s')
    (hw : now.toNat + 255000 < 2 ^ 32)
    (hs : s.state = .slave → 5000 ≤ s.timers.heartbeat.toNat) :
    s'.state = .slave → 5000 ≤ s'.timers.heartbeat.toNat := by
  have arm : ∀ n, 5000 ≤ (now + BitVec.ofNat 32 (5000 + n % 2000)).toNat := by
    intro n
    rw [timeout_toNat hw]
    omega
  cases h with
  | slaveQuiet | slaveEffect | slaveControl | other => exact hs
  | masterQuiet _ e | beat _ e | change _ e | «repeat» _ e =>
    intro e'
    have e' : s.state = .slave := e'
    rw [e] at e'; cases e'
  | electionWon _ _ e | masterEffect _ _ e | masterControl _ _ e =>
    intro e'
    have e' : s.state = .slave := e'
    rw [e] at e'; cases e'
  | takeOver => exact fun e => by cases e
  | slaveHeartbeat | slaveClaim => rw [armSlaveTimeout_eq]; exact fun _ => arm _
  | electionLost | masterClaim =>
    unfold afterBeginSlave
    rw [armSlaveTimeout_eq]
    exact fun _ => arm _

theorem tick_armed {now rx} {s s' : Node} (h : s.Sound0)
    (ht : s.tick .host now rx now rx = .ok s') (hw : now.toNat + 255000 < 2 ^ 32)
    (hs : s.state = .slave → 5000 ≤ s.timers.heartbeat.toNat) :
    s'.state = .slave → 5000 ≤ s'.timers.heartbeat.toNat := by
  obtain ⟨s₁, c1, k1, e | ⟨s₂, c2, k2, e⟩⟩ := h.tick ht
  · subst e; exact c1.armed hw hs
  · subst e; exact c2.armed hw (c1.armed hw hs)

/-- A device that hears nothing: a master stays master, a slave becomes master when its time is up
and else keeps its deadline. -/
theorem TickCase.deaf {plat now} {s s' : Node} (wf : s.WF) (h : TickCase plat now none s s') :
    (s.state = .master → s'.state = .master) ∧
    (s.state = .slave → 0 < s.timers.heartbeat.toNat →
      s.timers.heartbeat.toNat < now.toNat → s'.state = .master) ∧
    (s'.state = .slave → s' = s) := by
  have hexp : 0 < s.timers.heartbeat.toNat → s.timers.heartbeat.toNat < now.toNat →
      s.timerExpired now = .heartbeat := by
    intro h0 h1
    rw [timerExpired_heartbeat wf]
    exact (due_iff h0).2 h1
  cases h with
  | slaveQuiet _ hs ht =>
    refine ⟨fun e => (by rw [hs] at e; cases e), fun _ h0 h1 => absurd (hexp h0 h1) ht, fun _ => rfl⟩
  | masterQuiet _ hs => exact ⟨fun _ => hs, fun e => (by rw [hs] at e; cases e), fun _ => rfl⟩
  | takeOver _ hs => exact ⟨fun _ => rfl, fun _ _ _ => rfl, fun e => by cases e⟩
  | beat _ hs | change _ hs | «repeat» _ hs =>
    refine ⟨fun _ => hs, fun e => (by rw [hs] at e; cases e), fun e => ?_⟩
    have e : s.state = .slave := e
    rw [hs] at e; cases e
  | slaveHeartbeat p hd | slaveClaim p hd | slaveEffect p hd | slaveControl p hd | other p _ _ hd =>
    cases hd
  | electionWon p hd | electionLost p hd | masterClaim p hd | masterEffect p hd
  | masterControl p hd => cases hd

theorem tick_deaf {now} {s s' : Node} (h : s.Sound0)
    (ht : s.tick .host now none now none = .ok s') :
    (s.state = .master → s'.state = .master) ∧
    (s.state = .slave → 0 < s.timers.heartbeat.toNat →
      s.timers.heartbeat.toNat < now.toNat → s'.state = .master) ∧
    (s'.state = .slave → s'.timers.heartbeat = s.timers.heartbeat) := by
  obtain ⟨s₁, c1, k1, e | ⟨s₂, c2, k2, e⟩⟩ := h.tick ht
  · subst e
    have d1 := c1.deaf h.wf
    exact ⟨d1.1, d1.2.1, fun e => by have := d1.2.2 e; rw [this]⟩
  · subst e
    have d1 := c1.deaf h.wf
    have d2 := c2.deaf k1.wf
    refine ⟨fun e => d2.1 (d1.1 e), fun e h0 h1 => d2.1 (d1.2.1 e h0 h1), fun e => ?_⟩
    have e2 := d2.2.2 e
    have e1 := d1.2.2 (by rw [← e2]; exact e)
    rw [e2, e1]

end Node

section
variable {n : Nat} {net mid : Nat → FakeNet n} {R : Nat → List (Fin n)} {loss : Nat → Int}
  {d : Nat → U32} {draws : Nat → Fin n → Nat} {N : Nat}

/-- What is true of all devices after any course. -/
structure Alert (net : FakeNet n) : Prop where
  sound : ∀ i, (net.node i).Sound0
  armed : ∀ i, (net.node i).state = .slave → 5000 ≤ (net.node i).timers.heartbeat.toNat
  near : ∀ i, (net.node i).state = .slave →
    (net.node i).timers.heartbeat.toNat < net.now.toNat + 7000

namespace Spec.AnyCourse

theorem now (c : AnyCourse net mid R loss d draws N) {k : Nat} (hk : k < N) :
    (net (k + 1)).now.toNat = (net k).now.toNat + (d k).toNat ∧
    (((mid k).setPacketLoss (loss k)).advanceMillis (d k)).now = (net (k + 1)).now := by
  have hw := c.clock k hk
  have facts := (c.reset k hk).facts (by omega)
  have r := tick_round (c.step k hk)
  have e : (((mid k).setPacketLoss (loss k)).advanceMillis (d k)).now = (net k).now + d k := by
    show (mid k).now + d k = _
    rw [facts.1]
  refine ⟨?_, r.now.symm⟩
  rw [r.now, e, BitVec.toNat_add]; omega

theorem alert (c : AnyCourse net mid R loss d draws N) (hn : n ≤ 99) {k : Nat} (hk : k ≤ N) :
    Alert (net k) := by
  induction k with
  | zero =>
    have b := c.start.idle hn
    refine ⟨fun i => (b.silent i).sound.zero, fun i _ => ?_, fun i _ => ?_⟩
    · have := (b.silent i).deadline; omega
    · have := (b.silent i).deadline
      rw [c.start.now, BitVec.toNat_ofNat]; omega
  | succ k ih =>
    have a := ih (by omega)
    have hw := c.clock k (by omega)
    have facts := (c.reset k (by omega)).facts (by omega)
    have r := tick_round (c.step k (by omega))
    obtain ⟨t1, t2⟩ := c.now (k := k) (by omega)
    have hs : ∀ i, ((mid k).node i).Sound0 := fun i => by
      rcases facts.2.2.2.2 i with ⟨_, e⟩ | ⟨_, e⟩
      · rw [e]; exact a.sound i
      · exact e.sound
    have hnow : (((mid k).setPacketLoss (loss k)).advanceMillis (d k)).now.toNat + 255000 < 2 ^ 32 := by
      rw [t2]; omega
    refine ⟨fun i => ((hs i).after (r.ticks i)).zero, fun i => ?_, fun i => ?_⟩
    · refine Node.tick_armed (hs i) (r.ticks i) hnow fun e => ?_
      have e : ((mid k).node i).state = .slave := e
      show 5000 ≤ ((mid k).node i).timers.heartbeat.toNat
      rcases facts.2.2.2.2 i with ⟨_, e'⟩ | ⟨_, e'⟩
      · rw [e'] at e ⊢; exact a.armed i e
      · have := e'.deadline; omega
    · refine Node.tick_near (hs i) (r.ticks i) hnow (by rw [t2]; exact Nat.le_refl _) fun e => ?_
      have e : ((mid k).node i).state = .slave := e
      show ((mid k).node i).timers.heartbeat.toNat < _
      rcases facts.2.2.2.2 i with ⟨_, e'⟩ | ⟨_, e'⟩
      · rw [e'] at e ⊢; have := a.near i e; omega
      · have := e'.deadline; omega

/-- The `Tick` of a device that hears nothing. -/
theorem deaf_step (c : AnyCourse net mid R loss d draws N) (hn : n ≤ 99) {k : Nat} (hk : k < N)
    {i : Fin n} (hR : i ∉ R k) (hl : LostOn (loss k) (draws k) i) :
    (((net k).node i).state = .master → ((net (k + 1)).node i).state = .master) ∧
    (((net k).node i).state = .slave → ((net k).node i).timers.heartbeat.toNat <
      (net (k + 1)).now.toNat → ((net (k + 1)).node i).state = .master) ∧
    (((net (k + 1)).node i).state = .slave →
      ((net (k + 1)).node i).timers.heartbeat = ((net k).node i).timers.heartbeat) := by
  have a := c.alert hn (k := k) (by omega)
  have hw := c.clock k hk
  have facts := (c.reset k hk).facts (by omega)
  obtain ⟨t1, t2⟩ := c.now hk
  have r := tick_round (c.step k hk)
  have hrx : (((mid k).setPacketLoss (loss k)).advanceMillis (d k)).staged (draws k) i = none := by
    unfold staged heard
    have : (((mid k).setPacketLoss (loss k)).advanceMillis (d k)).loss = loss k := rfl
    rw [this]
    simp [hl.1, hl.2]
  have ht := r.ticks i
  rw [hrx, t2] at ht
  have e : ((mid k).node i) = (net k).node i := by
    rcases facts.2.2.2.2 i with ⟨_, e⟩ | ⟨e, _⟩
    · exact e
    · exact absurd e hR
  have ht : ((net k).node i).tick .host (net (k + 1)).now none (net (k + 1)).now none =
      .ok ((net (k + 1)).node i) := by rw [← e]; exact ht
  obtain ⟨h1, h2, h3⟩ := Node.tick_deaf (a.sound i) ht
  exact ⟨h1, fun hs => h2 hs (by have := a.armed i hs; omega), h3⟩

theorem deaf (c : AnyCourse net mid R loss d draws N) (hn : n ≤ 99) {k m : Nat} (hkm : k < m)
    (hm : m ≤ N) {i : Fin n} (hR : ∀ j, k ≤ j → j < m → i ∉ R j)
    (hl : ∀ j, k ≤ j → j < m → LostOn (loss j) (draws j) i)
    (ht : (net k).now.toNat + 7000 ≤ (net m).now.toNat) :
    ((net m).node i).state = .master := by
  -- as long as it is a slave, its deadline is the old one
  have key : ∀ q, k + q < m → ((net (k + q)).node i).state = .master ∨
      (((net (k + q)).node i).state = .slave ∧
        ((net (k + q)).node i).timers.heartbeat.toNat < (net k).now.toNat + 7000) := by
    intro q
    induction q with
    | zero =>
      intro _
      cases e : ((net k).node i).state with
      | master => exact .inl rfl
      | slave => exact .inr ⟨rfl, (c.alert hn (by omega)).near i e⟩
    | succ q ih =>
      intro hq
      obtain ⟨h1, h2, h3⟩ := c.deaf_step hn (k := k + q) (by omega) (hR _ (by omega) (by omega))
        (hl _ (by omega) (by omega))
      cases e : ((net (k + (q + 1))).node i).state with
      | master => exact .inl rfl
      | slave =>
        right
        refine ⟨rfl, ?_⟩
        have e3 := h3 e
        rcases ih (by omega) with e' | ⟨_, e'⟩
        · have := h1 e'
          have e : ((net (k + q + 1)).node i).state = .slave := e
          rw [this] at e; cases e
        · show ((net (k + q + 1)).node i).timers.heartbeat.toNat < _
          rw [e3]; exact e'
  obtain ⟨q, rfl⟩ : ∃ q, m = k + q + 1 := ⟨m - k - 1, by omega⟩
  obtain ⟨h1, h2, h3⟩ := c.deaf_step hn (k := k + q) (by omega) (hR _ (by omega) (by omega))
    (hl _ (by omega) (by omega))
  rcases key q (by omega) with e | ⟨e, e'⟩
  · exact h1 e
  · exact h2 e (by omega)

end Spec.AnyCourse

namespace FakeNet

theorem getNumMasters_all {n} {net : FakeNet n} (h : ∀ i, (net.node i).state = .master) :
    net.getNumMasters = n := by
  rw [getNumMasters_eq]
  have : (List.finRange n).countP (fun i => decide ((net.node i).getCurrentState = .master)) =
      (List.finRange n).length := by
    rw [List.countP_eq_length]
    exact fun i _ => decide_eq_true (h i)
  rw [this, List.length_finRange]

end FakeNet
end
end Firefly
