import Verif.Lemmas.FakeNetwork

/-! # What a device of the test network does in a `Tick` -/

namespace Firefly
open Spec

/-- What is true of every device: what it remembers are the numbers of what it sent. -/
structure Node.Sound (s : Node) : Prop where
  wf : s.WF
  rem : s.nm.Repr (s.sent.map (·.id)).reverse
  ran : s.tickRun = true

namespace Node

theorem TickCase.tickRun {plat now rx} {s s' : Node} (h : TickCase plat now rx s s') :
    s'.tickRun = s.tickRun := by
  cases h <;> first | rfl | skip

theorem Sound.radioTick {plat now rx} {s s' : Node} (h : s.Sound)
    (hc : TickCase plat now rx s s') : s'.Sound := by
  obtain ⟨l, h1, h2⟩ := hc.grows
  refine ⟨hc.wf h.wf, ?_, hc.tickRun.trans h.ran⟩
  rw [h1, h2, List.map_append, List.reverse_append]
  exact push_all h.rem l

theorem Sound.delivered {s : Node} (h : s.Sound) (p : Packet) :
    s.delivered (some p) = if p.id ∈ memory s then none else some p := by
  simp only [Node.delivered]
  have : p.id ∈ s.nm.cache.toList ↔ p.id ∈ memory s := by
    rw [Vector.mem_toList_iff, h.rem.mem_iff]; rfl
  simp only [this]

/-- The two halves of a `Tick`. -/
theorem Sound.tick {now rx} {s s' : Node} (h : s.Sound)
    (ht : s.tick .host now rx now rx = .ok s') :
    ∃ s₁, TickCase .host now rx s s₁ ∧ s₁.Sound ∧ TickCase .host now rx s₁ s' ∧ s'.Sound := by
  obtain ⟨s₁, h1, h2⟩ := Node.tick_eq_ops.1 ht
  have c1 := Node.radioTick_cases h.wf h1
  have k1 := h.radioTick c1
  rcases h2 with ⟨e, _⟩ | ⟨_, s₂, h2, h3⟩
  · rw [k1.ran] at e; cases e
  · have c2 := Node.radioTick_cases k1.wf h2
    have k2 := k1.radioTick c2
    have : s' = s₂ := by
      have h3 : Except.ok { s₂ with tickRun := true } = Except.ok s' := h3
      injection h3 with h3
      rw [← h3, ← k2.ran]
    subst this
    exact ⟨s₁, c1, k1, c2, k2⟩

end Node

theorem memory_append {s s' : Node} {l : List Packet} (h : s'.sent = s.sent ++ l) (x : U16) :
    x ∈ memory s' → x ∈ memory s ∨ x ∈ l.map (·.id) := by
  unfold memory
  rw [h, List.map_append, List.reverse_append]
  simp only [mem_lastFive]
  rintro ⟨k, hk, e⟩
  by_cases hkl : k < l.length
  · right
    rw [List.getD_eq_getElem?_getD, List.getElem?_append_left (by simpa using hkl)] at e
    rw [List.getElem?_eq_getElem (by simpa using hkl)] at e
    rw [← e]
    exact List.mem_reverse.1 (List.getElem_mem _)
  · left
    rw [List.getD_eq_getElem?_getD, List.getElem?_append_right (by simpa using hkl)] at e
    refine ⟨k - l.length, by omega, ?_⟩
    rw [List.getD_eq_getElem?_getD]
    simpa using e

theorem memory_recent {s : Node} {l m : List Packet} {x : U16} (h : s.sent = l ++ m)
    (hm : m.length ≤ 5) (hx : x ∈ m.map (·.id)) : x ∈ memory s := by
  unfold memory
  rw [h, List.map_append, List.reverse_append, mem_lastFive]
  obtain ⟨k, hk, e⟩ := List.mem_iff_getElem.1 (List.mem_reverse.2 hx)
  have hk' : k < m.length := by simpa using hk
  refine ⟨k, by omega, ?_⟩
  rw [List.getD_eq_getElem?_getD, List.getElem?_append_left hk, List.getElem?_eq_getElem hk]
  exact e

theorem memory_same {s s' : Node} (h : s'.sent = s.sent) : memory s' = memory s := by
  unfold memory; rw [h]

/-- What the staged packet is to a device. -/
def Known (s : Node) (rx : Option Packet) : Prop := ∀ p ∈ rx, p.id ∈ memory s

namespace Node

theorem Sound.known {s : Node} (h : s.Sound) {rx} (hk : Known s rx) : s.delivered rx = none := by
  cases rx with
  | none => rfl
  | some p => rw [h.delivered, if_pos (hk p rfl)]

theorem Sound.unknown {s : Node} (h : s.Sound) {p : Packet} (hk : p.id ∉ memory s) :
    s.delivered (some p) = some p := by
  rw [h.delivered, if_neg hk]

/-- A slave that hears nothing new before its deadline does nothing. -/
theorem Sound.slave_quiet {now rx} {s s' : Node} (h : s.Sound) (hs : s.state = .slave)
    (hk : Known s rx) (hT : now ≤ s.timers.heartbeat) (ht : s.tick .host now rx now rx = .ok s') :
    s' = s := by
  have key : ∀ {s' : Node}, TickCase .host now rx s s' → s' = s := by
    intro s' c
    have hd := h.known hk
    have he : s.timerExpired now ≠ .heartbeat := by
      rw [Ne, timerExpired_heartbeat h.wf]
      rintro ⟨_, e⟩
      rw [BitVec.lt_def] at e; rw [BitVec.le_def] at hT; omega
    cases c <;> simp_all
  obtain ⟨s₁, c1, k1, c2, _⟩ := h.tick ht
  have := key c1
  subst this
  exact key c2

/-- A slave that hears something new passes it on and stays a slave. -/
theorem Sound.slave_hears {now} {p : Packet} {s s' : Node} (h : s.Sound)
    (hnow : now.toNat + 255000 < 2 ^ 32) (hs : s.state = .slave) (hk : p.id ∉ memory s)
    (hT : now ≤ s.timers.heartbeat ∨ p.type = .heartbeat ∨ p.type = .claimMaster)
    (ht : s.tick .host now (some p) now (some p) = .ok s') :
    s'.state = .slave ∧ s'.sent = s.sent ++ [p] ∧
      (s'.timers.heartbeat = s.timers.heartbeat ∧ ¬ (p.type = .heartbeat ∨ p.type = .claimMaster) ∨
        now.toNat + 5000 ≤ s'.timers.heartbeat.toNat ∧
          s'.timers.heartbeat.toNat < now.toNat + 7000) := by
  obtain ⟨s₁, c1, k1, c2, _⟩ := h.tick ht
  have hd := h.unknown hk
  have key : s₁.state = .slave ∧ s₁.sent = s.sent ++ [p] ∧
      (s₁.timers.heartbeat = s.timers.heartbeat ∧
        ¬ (p.type = .heartbeat ∨ p.type = .claimMaster) ∨
        now.toNat + 5000 ≤ s₁.timers.heartbeat.toNat ∧
          s₁.timers.heartbeat.toNat < now.toNat + 7000) := by
    have arm : ∀ n, now.toNat + 5000 ≤ (now + BitVec.ofNat 32 (5000 + n % 2000)).toNat ∧
        (now + BitVec.ofNat 32 (5000 + n % 2000)).toNat < now.toNat + 7000 := by
      intro n
      rw [timeout_toNat hnow]
      omega
    cases c1 with
    | slaveQuiet e | masterQuiet e | takeOver e | beat e | change e | «repeat» e =>
      rw [hd] at e; cases e
    | electionWon _ _ e | electionLost _ _ e | masterClaim _ _ e =>
      rw [hs] at e; cases e
    | masterEffect _ _ e | masterControl _ _ e =>
      rw [hs] at e; cases e
    | slaveHeartbeat q e | slaveClaim q e =>
      rw [hd] at e; cases e
      rw [armSlaveTimeout_eq]
      exact ⟨hs, rfl, .inr (arm _)⟩
    | slaveEffect q e _ hp | slaveControl q e _ hp | other q _ _ e hp =>
      rw [hd] at e; cases e
      exact ⟨hs, rfl, .inl ⟨rfl, by rw [hp]; simp⟩⟩
  obtain ⟨e1, e2, e3⟩ := key
  have hk1 : Known s₁ (some p) := by
    intro q hq
    cases hq
    exact memory_recent e2 (by simp) (by simp)
  have hT1 : now ≤ s₁.timers.heartbeat := by
    rw [BitVec.le_def]
    rcases e3 with ⟨e, hne⟩ | e
    · rcases hT with hT | hT
      · rw [e]; exact BitVec.le_def.1 hT
      · exact absurd hT hne
    · omega
  have : s' = s₁ := by
    have hd := k1.known hk1
    have he : s₁.timerExpired now ≠ .heartbeat := by
      rw [Ne, timerExpired_heartbeat k1.wf]
      rintro ⟨_, e⟩
      rw [BitVec.lt_def] at e; rw [BitVec.le_def] at hT1; omega
    cases c2 <;> simp_all
  subst this
  exact ⟨e1, e2, e3⟩

/-- A slave whose time is up becomes master. -/
theorem Sound.slave_takes_over {now} {s s' : Node} (h : s.Sound)
    (hnow : now.toNat + 255000 < 2 ^ 32) (hs : s.state = .slave)
    (hT : s.timers.heartbeat ≠ 0 ∧ s.timers.heartbeat < now)
    (hd : takeoverDelay now s.effectChangeSeenAt ≠ 0)
    (ht : s.tick .host now none now none = .ok s') :
    s'.state = .master ∧ (∃ p, p.type = .heartbeat ∧ s'.sent = s.sent ++ [p]) ∧
      s'.timers.heartbeat = now + 1000 ∧ s'.timers.broadcastEffect = now + 2000 ∧
      s'.timers.changeEffect = now + takeoverDelay now s.effectChangeSeenAt := by
  obtain ⟨s₁, c1, k1, c2, _⟩ := h.tick ht
  have he := (timerExpired_heartbeat h.wf).2 hT
  have e1 : s₁ = afterBeginMaster .host now
      { s with timers := { s.timers with heartbeat := 0 } } := by
    cases c1 <;> simp_all [Node.delivered]
  have a1 : s₁.state = .master := by rw [e1]; rfl
  have a2 : ∃ p : Packet, p.type = .heartbeat ∧ s₁.sent = s.sent ++ [p] := by
    rw [e1]; exact ⟨_, rfl, rfl⟩
  have a3 : s₁.timers.heartbeat = now + 1000 := by rw [e1]; rfl
  have a4 : s₁.timers.broadcastEffect = now + 2000 := by rw [e1]; rfl
  have a5 : s₁.timers.changeEffect = now + takeoverDelay now s.effectChangeSeenAt := by
    rw [e1]
    show (if takeoverDelay now s.effectChangeSeenAt = 0 then 0 else _) = _
    rw [if_neg hd]; rfl
  have hq : s₁.timerExpired now = .none := by
    have hdl : (takeoverDelay now s.effectChangeSeenAt).toNat ≤ 255000 := by
      unfold takeoverDelay kChangeEffectInterval
      split
      · decide
      · rename_i hlt
        rw [BitVec.lt_def] at hlt
        rw [BitVec.toNat_sub_of_le (by rw [BitVec.le_def]; omega)]
        have : (60000 : U32).toNat = 60000 := rfl
        omega
    have n3 : ¬ s₁.timers.heartbeat < now := by
      rw [a3, BitVec.lt_def, add_toNat hnow (by decide)]; omega
    have n4 : ¬ s₁.timers.broadcastEffect < now := by
      rw [a4, BitVec.lt_def, add_toNat hnow (by decide)]; omega
    have n5 : ¬ s₁.timers.changeEffect < now := by
      rw [a5, BitVec.lt_def, add_toNat hnow hdl]; omega
    unfold timerExpired
    simp [n3, n4, n5]
  have : s' = s₁ := by
    cases c2 <;> simp_all [Node.delivered]
  subst this
  exact ⟨a1, a2, a3, a4, a5⟩

/-- A master that hears nothing new and has nothing to do does nothing. -/
theorem Sound.master_quiet {now rx} {s s' : Node} (h : s.Sound) (hs : s.state = .master)
    (hk : Known s rx) (hT : s.timerExpired now = .none)
    (ht : s.tick .host now rx now rx = .ok s') : s' = s := by
  have key : ∀ {s' : Node}, TickCase .host now rx s s' → s' = s := by
    intro s' c
    have hd := h.known hk
    cases c <;> simp_all
  obtain ⟨s₁, c1, k1, c2, _⟩ := h.tick ht
  have := key c1
  subst this
  exact key c2

/-- A master that hears the heartbeat of another one claims or gives up. -/
theorem Sound.master_hears_heartbeat {now} {p : Packet} {s s' : Node} (h : s.Sound)
    (hnow : now.toNat + 255000 < 2 ^ 32) (hs : s.state = .master) (hk : p.id ∉ memory s)
    (hp : p.type = .heartbeat) (hT : s.timerExpired now = .none)
    (ht : s.tick .host now (some p) now (some p) = .ok s') :
    (s'.state = .master ∧ (∃ q, q.type = .claimMaster ∧ s'.sent = s.sent ++ [p, q]) ∧
      s'.timers = s.timers) ∨
    (s'.state = .slave ∧ s'.sent = s.sent ++ [p] ∧
      now.toNat + 5000 ≤ s'.timers.heartbeat.toNat) := by
  obtain ⟨s₁, c1, k1, c2, _⟩ := h.tick ht
  have hd := h.unknown hk
  have key : (s₁.state = .master ∧ (∃ q, q.type = .claimMaster ∧ s₁.sent = s.sent ++ [p, q]) ∧
      s₁.timers = s.timers) ∨
    (s₁.state = .slave ∧ s₁.sent = s.sent ++ [p] ∧
      now.toNat + 5000 ≤ s₁.timers.heartbeat.toNat) := by
    cases c1 with
    | slaveQuiet e | masterQuiet e | takeOver e | beat e | change e | «repeat» e =>
      rw [hd] at e; cases e
    | slaveHeartbeat _ _ e | slaveClaim _ _ e | slaveEffect _ _ e | slaveControl _ _ e =>
      rw [hs] at e; cases e
    | electionWon q e =>
      rw [hd] at e; cases e
      exact .inl ⟨hs, ⟨stamped .host { s.packet with type := .claimMaster, len := 0 }
        { afterAccept p s with rand := s.rand.rest }, rfl, by
          simp [afterSend, afterAccept]⟩, rfl⟩
    | electionLost q e =>
      rw [hd] at e; cases e
      refine .inr ⟨rfl, ?_, ?_⟩ <;> unfold afterBeginSlave <;> rw [armSlaveTimeout_eq]
      · rfl
      · show _ ≤ (now + BitVec.ofNat 32 (5000 + _ % 2000)).toNat
        rw [timeout_toNat hnow]; omega
    | masterClaim q e _ hq | masterEffect q e _ hq | masterControl q e _ hq | other q _ _ e hq =>
      rw [hd] at e; cases e
      rw [hp] at hq; cases hq
  have hk1 : Known s₁ (some p) := by
    intro q hq
    cases hq
    rcases key with ⟨_, ⟨q, _, e⟩, _⟩ | ⟨_, e, _⟩
    · exact memory_recent e (by simp) (by simp)
    · exact memory_recent e (by simp) (by simp)
  have hd1 := k1.known hk1
  have : s' = s₁ := by
    rcases key with ⟨e1, _, e2⟩ | ⟨e1, _, e2⟩
    · have he : s₁.timerExpired now = .none := by
        rw [← hT]; unfold timerExpired; rw [e2]
      cases c2 <;> simp_all
    · have he : s₁.timerExpired now ≠ .heartbeat := by
        rw [Ne, timerExpired_heartbeat k1.wf]
        rintro ⟨_, e⟩
        rw [BitVec.lt_def] at e; omega
      cases c2 <;> simp_all
  subst this
  exact key

/-- A master that hears a claim gives up. -/
theorem Sound.master_hears_claim {now} {p : Packet} {s s' : Node} (h : s.Sound)
    (hnow : now.toNat + 255000 < 2 ^ 32) (hs : s.state = .master) (hk : p.id ∉ memory s)
    (hp : p.type = .claimMaster)
    (ht : s.tick .host now (some p) now (some p) = .ok s') :
    s'.state = .slave ∧ s'.sent = s.sent ++ [p] ∧
      now.toNat + 5000 ≤ s'.timers.heartbeat.toNat := by
  obtain ⟨s₁, c1, k1, c2, _⟩ := h.tick ht
  have hd := h.unknown hk
  have key : s₁.state = .slave ∧ s₁.sent = s.sent ++ [p] ∧
      now.toNat + 5000 ≤ s₁.timers.heartbeat.toNat := by
    cases c1 with
    | slaveQuiet e | masterQuiet e | takeOver e | beat e | change e | «repeat» e =>
      rw [hd] at e; cases e
    | slaveHeartbeat _ _ e | slaveClaim _ _ e | slaveEffect _ _ e | slaveControl _ _ e =>
      rw [hs] at e; cases e
    | masterClaim q e =>
      rw [hd] at e; cases e
      refine ⟨rfl, ?_, ?_⟩ <;> unfold afterBeginSlave <;> rw [armSlaveTimeout_eq]
      · rfl
      · show _ ≤ (now + BitVec.ofNat 32 (5000 + _ % 2000)).toNat
        rw [timeout_toNat hnow]; omega
    | electionWon q e _ hq | electionLost q e _ hq | masterEffect q e _ hq =>
      rw [hd] at e; cases e
      rw [hp] at hq; cases hq
    | masterControl q e _ hq | other q _ _ e hq =>
      rw [hd] at e; cases e
      rw [hp] at hq; cases hq
  have hk1 : Known s₁ (some p) := by
    intro q hq
    cases hq
    exact memory_recent key.2.1 (by simp) (by simp)
  have hd1 := k1.known hk1
  have : s' = s₁ := by
    obtain ⟨e1, _, e2⟩ := key
    have he : s₁.timerExpired now ≠ .heartbeat := by
      rw [Ne, timerExpired_heartbeat k1.wf]
      rintro ⟨_, e⟩
      rw [BitVec.lt_def] at e; omega
    cases c2 <;> simp_all
  subst this
  exact key

/-- A timer is due. -/
def Due (now t : U32) : Prop := t ≠ 0 ∧ t < now

/-- What the timers make a master do in a radio tick: the timers afterwards, and what it sends. -/
inductive Fire (now : U32) (T : Timers) : Timers → List Packet → Prop
  | quiet : ¬ Due now T.heartbeat → ¬ Due now T.changeEffect → ¬ Due now T.broadcastEffect →
      Fire now T T []
  | beat (q : Packet) : Due now T.heartbeat → q.type = .heartbeat →
      Fire now T { T with heartbeat := now + 1000 } [q]
  | change (q : Packet) : ¬ Due now T.heartbeat → Due now T.changeEffect →
      Fire now T { T with changeEffect := now + 60000 } [q]
  | repeat (q : Packet) : ¬ Due now T.heartbeat → ¬ Due now T.changeEffect →
      Due now T.broadcastEffect → Fire now T { T with broadcastEffect := now + 2000 } [q]

theorem expired_none_iff {now} {s : Node} (wf : s.WF) :
    s.timerExpired now = .none ↔ ¬ Due now s.timers.heartbeat ∧ ¬ Due now s.timers.changeEffect ∧
      ¬ Due now s.timers.broadcastEffect := by
  simp only [timerExpired, wf.timerNone, Due]
  simp
  grind

theorem expired_change_iff {now} {s : Node} (wf : s.WF) :
    s.timerExpired now = .changeEffect ↔ ¬ Due now s.timers.heartbeat ∧
      Due now s.timers.changeEffect := by
  simp only [timerExpired, wf.timerNone, Due]
  simp
  grind

theorem expired_broadcast_iff {now} {s : Node} (wf : s.WF) :
    s.timerExpired now = .broadcastEffect ↔ ¬ Due now s.timers.heartbeat ∧
      ¬ Due now s.timers.changeEffect ∧ Due now s.timers.broadcastEffect := by
  simp only [timerExpired, wf.timerNone, Due]
  simp
  grind

theorem TickCase.fire {now rx} {s s' : Node} (wf : s.WF) (hs : s.state = .master)
    (hd : s.delivered rx = none) (c : TickCase .host now rx s s') :
    ∃ l, Fire now s.timers s'.timers l ∧ s'.sent = s.sent ++ l ∧ s'.state = .master := by
  cases c with
  | slaveQuiet _ e | takeOver _ e | slaveHeartbeat _ _ e | slaveClaim _ _ e =>
    rw [hs] at e; cases e
  | slaveEffect _ _ e | slaveControl _ _ e =>
    rw [hs] at e; cases e
  | electionWon _ e | electionLost _ e | masterClaim _ e | masterEffect _ e | masterControl _ e =>
    rw [hd] at e; cases e
  | other _ _ _ e => rw [hd] at e; cases e
  | masterQuiet _ _ e =>
    rw [expired_none_iff wf] at e
    exact ⟨[], .quiet e.1 e.2.1 e.2.2, by simp, hs⟩
  | beat _ _ e =>
    rw [timerExpired_heartbeat wf] at e
    exact ⟨[_], .beat _ e rfl, rfl, hs⟩
  | change _ _ e =>
    rw [expired_change_iff wf] at e
    exact ⟨[_], .change _ e.1 e.2, rfl, hs⟩
  | «repeat» _ _ e =>
    rw [expired_broadcast_iff wf] at e
    exact ⟨[_], .repeat _ e.1 e.2.1 e.2.2, rfl, hs⟩

theorem Fire.length {now T T' l} (h : Fire now T T' l) : l.length ≤ 1 := by
  cases h <;> simp

/-- A master that hears nothing but its own recent packets. -/
theorem Sound.master_tick {now rx} {s s' : Node} (h : s.Sound) (hs : s.state = .master)
    {l m : List Packet} (hm : s.sent = l ++ m) (hlen : m.length ≤ 4)
    (hk : ∀ p ∈ rx, p.id ∈ m.map (·.id)) (ht : s.tick .host now rx now rx = .ok s') :
    ∃ T₁ l₁ l₂, Fire now s.timers T₁ l₁ ∧ Fire now T₁ s'.timers l₂ ∧
      s'.sent = s.sent ++ (l₁ ++ l₂) ∧ s'.state = .master := by
  obtain ⟨s₁, c1, k1, c2, _⟩ := h.tick ht
  have hd := h.known (rx := rx) fun p hp => memory_recent hm (by omega) (hk p hp)
  obtain ⟨l₁, f1, e1, g1⟩ := c1.fire h.wf hs hd
  have := f1.length
  have hd1 := k1.known (rx := rx) fun p hp => by
    refine memory_recent (l := l) (m := m ++ l₁) (by rw [e1, hm, List.append_assoc])
      (by simp; omega) ?_
    rw [List.map_append]
    exact List.mem_append_left _ (hk p hp)
  obtain ⟨l₂, f2, e2, g2⟩ := c2.fire k1.wf g1 hd1
  exact ⟨_, l₁, l₂, f1, f2, by rw [e2, e1, List.append_assoc], g2⟩

end Node
end Firefly
