import Verif.Lemmas.FakeDeaf

/-! # Devices of the test network with any number of masters -/

namespace Firefly
open Spec FakeNet

namespace Node

/-- What the timers make a master do in a radio tick: the timers afterwards, and what it sends. -/
inductive Acts (now : U32) (T : Timers) : Timers → List Packet → Prop
  | quiet : ¬ Due now T.heartbeat → ¬ Due now T.changeEffect → ¬ Due now T.broadcastEffect →
      Acts now T T []
  | beat (q : Packet) : Due now T.heartbeat → q.type = .heartbeat →
      Acts now T { T with heartbeat := now + 1000 } [q]
  | change (q : Packet) : ¬ Due now T.heartbeat → Due now T.changeEffect → q.type = .setEffect →
      Acts now T { T with changeEffect := now + 60000 } [q]
  | repeat (q : Packet) : ¬ Due now T.heartbeat → ¬ Due now T.changeEffect →
      Due now T.broadcastEffect → q.type = .setEffect →
      Acts now T { T with broadcastEffect := now + 2000 } [q]

/-- What a device does in a radio tick in which it hears nothing new. -/
inductive Idle (now : U32) (s : Node) : Node → List Packet → Prop
  | slave : s.state = .slave → ¬ Due now s.timers.heartbeat → Idle now s s []
  | takes (s' : Node) (q : Packet) : s.state = .slave → Due now s.timers.heartbeat →
      s'.state = .master → s'.sent = s.sent ++ [q] → q.type = .heartbeat →
      s'.timers.heartbeat = now + 1000 → s'.timers.broadcastEffect = now + 2000 →
      Idle now s s' [q]
  | acts (s' : Node) (l : List Packet) : s.state = .master → s'.state = .master →
      Acts now s.timers s'.timers l → s'.sent = s.sent ++ l → Idle now s s' l

/-- What a device does in a radio tick in which it hears `p`, which is new to it. -/
inductive Takes (now : U32) (p : Packet) (s : Node) : Node → List Packet → Prop
  | hears (s' : Node) : s.state = .slave → s'.state = .slave → s'.sent = s.sent ++ [p] →
      (p.type = .heartbeat ∨ p.type = .claimMaster) →
      now.toNat + 5000 ≤ s'.timers.heartbeat.toNat → Takes now p s s' []
  | notes (s' : Node) : s.state = .slave → s'.state = .slave → s'.sent = s.sent ++ [p] →
      ¬ (p.type = .heartbeat ∨ p.type = .claimMaster) → s'.timers = s.timers → Takes now p s s' []
  | resigns (s' : Node) : s.state = .master → s'.state = .slave → s'.sent = s.sent ++ [p] →
      (p.type = .heartbeat ∨ p.type = .claimMaster) →
      now.toNat + 5000 ≤ s'.timers.heartbeat.toNat → Takes now p s s' []
  | claims (s' : Node) (q : Packet) : s.state = .master → s'.state = .master →
      s'.sent = s.sent ++ [p, q] → p.type = .heartbeat → q.type = .claimMaster →
      s'.timers = s.timers → Takes now p s s' [q]
  | follows (s' : Node) : s.state = .master → s'.state = .master → s'.sent = s.sent ++ [p] →
      ¬ (p.type = .heartbeat ∨ p.type = .claimMaster) →
      s'.timers.heartbeat = s.timers.heartbeat →
      s'.timers.broadcastEffect = s.timers.broadcastEffect → Takes now p s s' []

theorem TickCase.idle {now rx} {s s' : Node} (h : s.Able) (hd : s.delivered rx = none)
    (c : TickCase .host now rx s s') : ∃ l, Idle now s s' l := by
  cases c with
  | slaveHeartbeat _ e | slaveClaim _ e | slaveEffect _ e | slaveControl _ e =>
    rw [hd] at e; cases e
  | electionWon _ e | electionLost _ e | masterClaim _ e | masterEffect _ e | masterControl _ e =>
    rw [hd] at e; cases e
  | other _ _ _ e => rw [hd] at e; cases e
  | slaveQuiet _ hs e =>
    rw [Ne, timerExpired_heartbeat h.wf] at e
    exact ⟨[], .slave hs e⟩
  | takeOver _ hs e =>
    rw [timerExpired_heartbeat h.wf] at e
    exact ⟨[_], .takes _ _ hs e rfl rfl rfl rfl rfl⟩
  | masterQuiet _ hs e =>
    rw [expired_none_iff h.wf] at e
    exact ⟨[], .acts _ _ hs hs (.quiet e.1 e.2.1 e.2.2) (by simp)⟩
  | beat _ hs e =>
    rw [timerExpired_heartbeat h.wf] at e
    exact ⟨[_], .acts _ _ hs hs (.beat _ e rfl) rfl⟩
  | change _ hs e =>
    rw [expired_change_iff h.wf] at e
    exact ⟨[_], .acts _ _ hs hs (.change _ e.1 e.2 rfl) rfl⟩
  | «repeat» _ hs e =>
    rw [expired_broadcast_iff h.wf] at e
    exact ⟨[stamped .host s.setEffectPacket s],
      .acts _ _ hs hs (.repeat _ e.1 e.2.1 e.2.2 h.instr) rfl⟩

theorem TickCase.takes {now rx} {p : Packet} {s s' : Node} (hd : s.delivered rx = some p)
    (hw : now.toNat + 255000 < 2 ^ 32) (c : TickCase .host now rx s s') :
    ∃ l, Takes now p s s' l := by
  have arm : ∀ n, now.toNat + 5000 ≤ (now + BitVec.ofNat 32 (5000 + n % 2000)).toNat := by
    intro n
    rw [timeout_toNat hw]
    omega
  cases c with
  | slaveQuiet e | masterQuiet e | takeOver e | beat e | change e | «repeat» e =>
    rw [hd] at e; cases e
  | slaveHeartbeat q e hs hp =>
    rw [hd] at e; cases e
    rw [armSlaveTimeout_eq]
    exact ⟨[], .hears _ hs hs rfl (.inl hp) (arm _)⟩
  | slaveClaim q e hs hp =>
    rw [hd] at e; cases e
    rw [armSlaveTimeout_eq]
    exact ⟨[], .hears _ hs hs rfl (.inr hp) (arm _)⟩
  | slaveEffect q e hs hp | slaveControl q e hs hp =>
    rw [hd] at e; cases e
    exact ⟨[], .notes _ hs hs rfl (by rw [hp]; simp) rfl⟩
  | other q _ _ e hp =>
    rw [hd] at e; cases e
    cases hs : s.state with
    | slave => exact ⟨[], .notes _ hs hs rfl (by rw [hp]; simp) rfl⟩
    | master => exact ⟨[], .follows _ hs hs rfl (by rw [hp]; simp) rfl rfl⟩
  | electionWon q e hs hp =>
    rw [hd] at e; cases e
    exact ⟨[_], .claims _ (stamped .host { s.packet with type := .claimMaster, len := 0 }
      { afterAccept p s with rand := s.rand.rest }) hs hs (by simp [afterSend, afterAccept]) hp rfl
      rfl⟩
  | electionLost q e hs hp =>
    rw [hd] at e; cases e
    refine ⟨[], .resigns _ hs rfl ?_ (.inl hp) ?_⟩ <;> unfold afterBeginSlave <;>
      rw [armSlaveTimeout_eq]
    · rfl
    · exact arm _
  | masterClaim q e hs hp =>
    rw [hd] at e; cases e
    refine ⟨[], .resigns _ hs rfl ?_ (.inr hp) ?_⟩ <;> unfold afterBeginSlave <;>
      rw [armSlaveTimeout_eq]
    · rfl
    · exact arm _
  | masterEffect q e hs hp =>
    rw [hd] at e; cases e
    exact ⟨[], .follows _ hs hs rfl (by rw [hp]; simp) rfl rfl⟩
  | masterControl q e hs hp =>
    rw [hd] at e; cases e
    exact ⟨[], .follows _ hs hs rfl (by rw [hp]; simp) rfl rfl⟩

theorem Idle.sent {now} {s s' : Node} {l} (h : Idle now s s' l) : s'.sent = s.sent ++ l := by
  cases h with
  | slave => simp
  | takes _ _ _ _ _ e => exact e
  | acts _ _ _ _ _ e => exact e

theorem Idle.length {now} {s s' : Node} {l} (h : Idle now s s' l) : l.length ≤ 1 := by
  cases h with
  | slave => simp
  | takes => simp
  | acts _ _ _ _ a =>
    generalize s'.timers = T at a
    cases a <;> simp

theorem Takes.sent {now p} {s s' : Node} {l} (h : Takes now p s s' l) :
    s'.sent = s.sent ++ p :: l := by
  cases h <;> assumption

/-- How many packets a device may have sent since it came to know what is on its way. -/
def Bound (θ : Nat) (s : Node) (m : Nat) : Prop :=
  (s.state = .slave ∧ m ≤ 1) ∨
  (s.state = .master ∧ m ≤ 2 + late θ s.timers.heartbeat.toNat s.timers.changeEffect.toNat
    s.timers.broadcastEffect.toNat)

theorem Bound.le {θ} {s : Node} {m} (h : Bound θ s m) : m ≤ 5 := by
  rcases h with ⟨_, h⟩ | ⟨_, h⟩
  · omega
  · have := late_le θ s.timers.heartbeat.toNat s.timers.changeEffect.toNat
      s.timers.broadcastEffect.toNat
    omega

theorem sums {now : U32} (hw : now.toNat + 255000 < 2 ^ 32) :
    (now + 1000).toNat = now.toNat + 1000 ∧ (now + 2000).toNat = now.toNat + 2000 ∧
      (now + 60000).toNat = now.toNat + 60000 :=
  ⟨add_toNat hw (by decide), add_toNat hw (by decide), add_toNat hw (by decide)⟩

theorem Idle.bound {now} {s s' : Node} {l θ m} (h : Idle now s s' l)
    (hw : now.toNat + 255000 < 2 ^ 32) (h1 : now.toNat ≤ θ) (h2 : θ ≤ now.toNat + 1000)
    (b : Bound θ s m) : Bound θ s' (m + l.length) := by
  obtain ⟨a1, a2, a3⟩ := sums hw
  cases h with
  | slave hs => exact b
  | takes s' q hs _ hs' _ _ t1 t2 =>
    right
    refine ⟨hs', ?_⟩
    rcases b with ⟨_, b⟩ | ⟨b, _⟩
    · unfold late
      rw [t1, t2, a1, a2, if_pos h2, if_pos (by omega : θ ≤ now.toNat + 2000)]
      simp only [List.length_singleton]
      omega
    · rw [hs] at b; cases b
  | acts s' l hs hs' a _ =>
    right
    refine ⟨hs', ?_⟩
    rcases b with ⟨b, _⟩ | ⟨_, b⟩
    · rw [hs] at b; cases b
    · generalize hT' : s'.timers = T' at a
      unfold late at *
      cases a with
      | quiet => simpa using b
      | beat q d _ =>
        have d := BitVec.lt_def.1 d.2
        show _ ≤ 2 + ((if θ ≤ (now + 1000).toNat then 1 else 0) + _ + _)
        rw [a1, if_pos h2]
        rw [if_neg (by omega)] at b
        simp only [List.length_singleton]
        omega
      | change q _ d _ =>
        have d := BitVec.lt_def.1 d.2
        show _ ≤ 2 + (_ + (if θ ≤ (now + 60000).toNat then 1 else 0) + _)
        rw [a3, if_pos (by omega : θ ≤ now.toNat + 60000)]
        rw [if_neg (by omega : ¬ θ ≤ s.timers.changeEffect.toNat)] at b
        simp only [List.length_singleton]
        omega
      | «repeat» q _ _ d _ =>
        have d := BitVec.lt_def.1 d.2
        show _ ≤ 2 + (_ + _ + (if θ ≤ (now + 2000).toNat then 1 else 0))
        rw [a2, if_pos (by omega : θ ≤ now.toNat + 2000)]
        rw [if_neg (by omega : ¬ θ ≤ s.timers.broadcastEffect.toNat)] at b
        simp only [List.length_singleton]
        omega

theorem Takes.bound {now p} {s s' : Node} {l θ} (h : Takes now p s s' l) :
    Bound θ s' (1 + l.length) := by
  cases h with
  | hears _ e | notes _ e | resigns _ e => exact .inl ⟨e, by simp⟩
  | claims _ _ e | follows _ e =>
    exact .inr ⟨e, by simp only [List.length_cons, List.length_nil]; omega⟩

/-- A `Tick` in which a device hears nothing new. -/
def Idle2 (now : U32) (s s' : Node) (m : List Packet) : Prop :=
  ∃ s₁ l₁ l₂, Idle now s s₁ l₁ ∧ Idle now s₁ s' l₂ ∧ m = l₁ ++ l₂

/-- A `Tick` in which a device hears `p`, which is new to it. -/
def Takes2 (now : U32) (p : Packet) (s s' : Node) (m : List Packet) : Prop :=
  ∃ s₁ l₁ l₂, Takes now p s s₁ l₁ ∧ Idle now s₁ s' l₂ ∧ m = l₁ ++ l₂

theorem Idle2.sent {now} {s s' : Node} {m} (h : Idle2 now s s' m) : s'.sent = s.sent ++ m := by
  obtain ⟨s₁, l₁, l₂, h1, h2, rfl⟩ := h
  rw [h2.sent, h1.sent, List.append_assoc]

theorem Takes2.sent {now p} {s s' : Node} {m} (h : Takes2 now p s s' m) :
    s'.sent = s.sent ++ p :: m := by
  obtain ⟨s₁, l₁, l₂, h1, h2, rfl⟩ := h
  rw [h2.sent, h1.sent]; simp

theorem Idle2.bound {now} {s s' : Node} {l θ m} (h : Idle2 now s s' l)
    (hw : now.toNat + 255000 < 2 ^ 32) (h1 : now.toNat ≤ θ) (h2 : θ ≤ now.toNat + 1000)
    (b : Bound θ s m) : Bound θ s' (m + l.length) := by
  obtain ⟨s₁, l₁, l₂, c1, c2, rfl⟩ := h
  rw [List.length_append, ← Nat.add_assoc]
  exact c2.bound hw h1 h2 (c1.bound hw h1 h2 b)

theorem Takes2.bound {now p} {s s' : Node} {l θ} (h : Takes2 now p s s' l)
    (hw : now.toNat + 255000 < 2 ^ 32) (h1 : now.toNat ≤ θ) (h2 : θ ≤ now.toNat + 1000) :
    Bound θ s' (1 + l.length) := by
  obtain ⟨s₁, l₁, l₂, c1, c2, rfl⟩ := h
  rw [List.length_append, ← Nat.add_assoc]
  exact c2.bound hw h1 h2 c1.bound

theorem Idle.states {now} {s s' : Node} {m} (h : Idle now s s' m) :
    (s.state = .master → s'.state = .master) ∧ (s'.state = .slave → s' = s ∧ m = []) := by
  cases h with
  | slave e => exact ⟨fun e' => (by rw [e] at e'; cases e'), fun _ => ⟨rfl, rfl⟩⟩
  | takes _ _ _ _ e => exact ⟨fun _ => e, fun e' => (by rw [e] at e'; cases e')⟩
  | acts _ _ _ e => exact ⟨fun _ => e, fun e' => (by rw [e] at e'; cases e')⟩

theorem Idle2.states {now} {s s' : Node} {m} (h : Idle2 now s s' m) :
    (s.state = .master → s'.state = .master) ∧ (s'.state = .slave → s' = s ∧ m = []) := by
  obtain ⟨s₁, l₁, l₂, c1, c2, rfl⟩ := h
  refine ⟨fun e => c2.states.1 (c1.states.1 e), fun e => ?_⟩
  obtain ⟨e2, m2⟩ := c2.states.2 e
  obtain ⟨e1, m1⟩ := c1.states.2 (e2 ▸ e)
  exact ⟨e2.trans e1, by rw [m1, m2]; rfl⟩

theorem Takes2.states {now p} {s s' : Node} {m} (h : Takes2 now p s s' m) :
    s'.state = .slave → m = [] := by
  obtain ⟨s₁, l₁, l₂, c1, c2, rfl⟩ := h
  intro e
  obtain ⟨e2, m2⟩ := c2.states.2 e
  subst e2
  rw [m2]
  cases c1 with
  | hears | notes | resigns | follows => rfl
  | claims _ _ e' => rw [e] at e'; cases e'

/-- A `Tick` of a device that knows what it hears. -/
theorem Sound.idle2 {now rx} {s s' : Node} (h : s.Sound) (ha : s.Able)
    (hw : now.toNat + 255000 < 2 ^ 32) {θ : Nat}
    (hr : ∀ p ∈ rx, Regular p ∧ ∃ l S : List Packet, s.sent = l ++ S ∧ p.id ∈ S.map (·.id) ∧
      Bound θ s S.length ∧ now.toNat ≤ θ ∧ θ ≤ now.toNat + 1000)
    (ht : s.tick .host now rx now rx = .ok s') : ∃ m, Idle2 now s s' m := by
  obtain ⟨s₁, c1, k1, c2, _⟩ := h.tick ht
  have hd := h.known (rx := rx) fun p hp => by
    obtain ⟨_, l, S, e1, e2, e3, _⟩ := hr p hp
    exact memory_recent e1 e3.le e2
  obtain ⟨l₁, i1⟩ := c1.idle ha hd
  have hd1 := k1.known (rx := rx) fun p hp => by
    obtain ⟨_, l, S, e1, e2, e3, e4, e5⟩ := hr p hp
    refine memory_recent (l := l) (m := S ++ l₁) (by rw [i1.sent, e1, List.append_assoc]) ?_ ?_
    · rw [List.length_append]; exact (i1.bound hw e4 e5 e3).le
    · rw [List.map_append]; exact List.mem_append_left _ e2
  have ha1 : s₁.Able := ha.cases (fun p hp => (hr p hp).1) c1
  obtain ⟨l₂, i2⟩ := c2.idle ha1 hd1
  exact ⟨_, s₁, l₁, l₂, i1, i2, rfl⟩

/-- A `Tick` of a device to which what it hears is new. -/
theorem Sound.takes2 {now} {p : Packet} {s s' : Node} (h : s.Sound) (ha : s.Able)
    (hw : now.toNat + 255000 < 2 ^ 32) (hp : Regular p) (hk : p.id ∉ memory s)
    (ht : s.tick .host now (some p) now (some p) = .ok s') : ∃ m, Takes2 now p s s' m := by
  obtain ⟨s₁, c1, k1, c2, _⟩ := h.tick ht
  obtain ⟨l₁, i1⟩ := c1.takes (h.unknown hk) hw
  have hd1 := k1.known (rx := some p) fun q hq => by
    cases hq
    refine memory_recent i1.sent ?_ (by simp)
    have := (i1.bound (θ := 0)).le
    simp only [List.length_cons]; omega
  have ha1 : s₁.Able := ha.cases (fun q hq => by cases hq; exact hp) c1
  obtain ⟨l₂, i2⟩ := c2.idle ha1 hd1
  exact ⟨_, s₁, l₁, l₂, i1, i2, rfl⟩

end Node
end Firefly
