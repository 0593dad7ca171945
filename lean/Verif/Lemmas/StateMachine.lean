import Verif.Model.StateMachine
import Verif.Lemmas.Mesh

/-! # Helper lemmas for the state machine: a complete case analysis of one radio tick -/

namespace Firefly

/-- The total version of `NM.addToRecentIdsCache`. -/
def NM.push (m : NM) (id : U16) : NM :=
  if h : m.idx.toNat < 5 then
    { cache := m.cache.set m.idx.toNat id, idx := (m.idx + 1) % kRecentIdsCacheSize }
  else m

theorem NM.add_eq_push {m : NM} (h : m.idx.toNat < 5) (id : U16) :
    m.addToRecentIdsCache id = .ok (m.push id) := by
  simp [NM.addToRecentIdsCache, NM.push, h]

theorem NM.push_idx {m : NM} (h : m.idx.toNat < 5) (id : U16) : (m.push id).idx.toNat < 5 := by
  have : (m.idx + 1).toNat = m.idx.toNat + 1 := by bv_omega
  simp only [NM.push, h, dif_pos]
  rw [BitVec.toNat_umod, this]
  exact Nat.mod_lt _ (by decide)

/-- The id `NetworkManager::send` draws. -/
def sendId (plat : Platform) (r : Rand) : U16 :=
  match plat with
  | .host => BitVec.ofNat 16 (2 + r 0 % 65535)
  | .arduino => BitVec.ofNat 16 (2 + r 0 % 65533)

/-- The number drawn in a master election. -/
def electionId (plat : Platform) (r : Rand) : U16 :=
  match plat with
  | .host => BitVec.ofNat 16 (1 + r 0 % 65535)
  | .arduino => BitVec.ofNat 16 (1 + r 0 % 65534)

/-- The rest of the random supply after one draw. -/
def Rand.rest (r : Rand) : Rand := fun n => r (n + 1)

theorem randomRange_send (plat : Platform) (r : Rand) :
    randomRange plat 2 0xFFFF r = .ok (sendId plat r, r.rest) := by
  cases plat
  · rw [randomRange, if_neg (by decide)]; rfl
  · rw [randomRange, if_neg (by decide)]; rfl

theorem randomRange_election (plat : Platform) (r : Rand) :
    randomRange plat 1 0xFFFF r = .ok (electionId plat r, r.rest) := by
  cases plat
  · rw [randomRange, if_neg (by decide)]; rfl
  · rw [randomRange, if_neg (by decide)]; rfl

namespace Node

/-- The facts about a node that hold between operations. -/
structure WF (s : Node) : Prop where
  idx : s.nm.idx.toNat < 5
  next : s.next = s.state
  timerNone : s.timers.none = 0

/-- The packet with the id that `send` will give it. -/
def stamped (plat : Platform) (p : Packet) (s : Node) : Packet :=
  { p with id := sendId plat s.rand }

/-- The node after `network_manager_->send(p)`. -/
def afterSend (plat : Platform) (p : Packet) (s : Node) : Node :=
  { s with
    nm := s.nm.push (sendId plat s.rand)
    rand := s.rand.rest
    sent := s.sent ++ [stamped plat p s] }

theorem nmSend_eq {plat : Platform} {p : Packet} {s : Node} (h : s.nm.idx.toNat < 5) :
    nmSend plat p s = .ok (stamped plat p s, afterSend plat p s) := by
  simp only [nmSend, NM.send, randomRange_send, NM.add_eq_push h, bind, Except.bind, pure,
    Except.pure]
  rfl

/-- The node after the mesh layer delivered (and relayed) `p`. -/
def afterAccept (p : Packet) (s : Node) : Node :=
  { s with nm := s.nm.push p.id, sent := s.sent ++ [p] }

/-- The node after `SendHeartbeat`. -/
def afterHeartbeat (plat : Platform) (now : U32) (s : Node) : Node :=
  { afterSend plat (s.packet.writeHeartbeat (s.getNetworkMillis now)) s with
    packet := stamped plat (s.packet.writeHeartbeat (s.getNetworkMillis now)) s }

theorem sendHeartbeat_eq {plat now} {s : Node} (h : s.nm.idx.toNat < 5) :
    s.sendHeartbeat plat now = .ok (afterHeartbeat plat now s) := by
  simp only [sendHeartbeat, nmSend_eq h, bind, Except.bind, pure, Except.pure]
  rfl

/-- The delay that `beginMaster` gives the effect timer. -/
def takeoverDelay (now seen : U32) : U32 :=
  if kChangeEffectInterval < now - seen then 1 else kChangeEffectInterval - (now - seen)

/-- The node after `beginMaster` (and the final assignment to `state_`). -/
def afterBeginMaster (plat : Platform) (now : U32) (s : Node) : Node :=
  let s := afterHeartbeat plat now s
  { s with
    state := .master
    next := .master
    timers :=
      { none := s.timers.none
        heartbeat := now + kMasterHeartbeatInterval
        broadcastEffect := now + kBroadcastEffectInterval
        changeEffect :=
          if takeoverDelay now s.effectChangeSeenAt = 0 then 0
          else now + takeoverDelay now s.effectChangeSeenAt } }

/-- The node after (re-)arming the slave timeout. -/
theorem armSlaveTimeout_eq (now : U32) (s : Node) :
    s.armSlaveTimeout now =
      { s with
        rand := s.rand.rest
        timers := { s.timers with
          heartbeat := now + BitVec.ofNat 32 (5000 + s.rand 0 % 2000) } } := by
  have hne : BitVec.ofNat 32 (kSlaveNoPacketTimeout + s.rand.draw.1 % kSlaveNoPacketRandom) ≠ 0 := by
    simp only [kSlaveNoPacketTimeout, kSlaveNoPacketRandom, Rand.draw]
    intro h
    have := congrArg BitVec.toNat h
    simp at this
    omega
  simp only [armSlaveTimeout, setTimer, if_neg hne, Timers.set]
  rfl

/-- The node after demotion. -/
def afterBeginSlave (now : U32) (s : Node) : Node :=
  { s.armSlaveTimeout now with state := .slave, next := .slave }

theorem beginMaster_eq {plat now} {s : Node} (h : s.nm.idx.toNat < 5) :
    s.beginMaster plat now =
      .ok { afterBeginMaster plat now s with state := s.state, next := s.next } := by
  have h0 : (afterHeartbeat plat now s).effectChangeSeenAt = s.effectChangeSeenAt := rfl
  by_cases h1 : kChangeEffectInterval < now - s.effectChangeSeenAt
  · simp only [beginMaster, sendHeartbeat_eq h, bind, Except.bind, pure, Except.pure, setTimer,
      Timers.set, h0, if_pos h1, afterBeginMaster, takeoverDelay]
    rfl
  · simp only [beginMaster, sendHeartbeat_eq h, bind, Except.bind, pure, Except.pure, setTimer,
      Timers.set, h0, if_neg h1, afterBeginMaster, takeoverDelay]
    rfl

/-! ### finishTick -/

theorem finishTick_same {plat now} {s : Node} (h : s.next = s.state) :
    s.finishTick plat now = .ok s := by
  simp only [finishTick, h, ne_eq, not_true, if_false, bind, Except.bind, pure, Except.pure]
  cases s; simp_all

theorem finishTick_master {plat now} {s : Node} (hi : s.nm.idx.toNat < 5)
    (h : s.state = .slave) (h' : s.next = .master) :
    s.finishTick plat now = .ok (afterBeginMaster plat now (s.setTimer now .heartbeat 0)) := by
  have hne : s.next ≠ s.state := by rw [h, h']; decide
  have hn : (s.setTimer now .heartbeat 0).next = .master := h'
  have hb := beginMaster_eq (plat := plat) (now := now) (s := s.setTimer now .heartbeat 0) hi
  simp only [finishTick, if_pos hne, hn, hb, bind, Except.bind, pure, Except.pure]
  rfl

theorem finishTick_slave {plat now} {s : Node}
    (h : s.state = .master) (h' : s.next = .slave) :
    s.finishTick plat now = .ok (afterBeginSlave now s) := by
  have hne : s.next ≠ s.state := by rw [h, h']; decide
  have hn : (s.setTimer now .heartbeat 0).next = .slave := h'
  simp only [finishTick, if_pos hne, hn, bind, Except.bind, pure, Except.pure, beginSlave,
    afterBeginSlave, armSlaveTimeout_eq]
  simp [h', setTimer, Timers.set]

/-! ### Case analysis of one radio tick -/

/-- The packet the mesh layer delivers. -/
def delivered (s : Node) (rx : Option Packet) : Option Packet :=
  match rx with
  | none => none
  | some p => if p.id ∈ s.nm.cache.toList then none else some p

theorem receive_none {s : Node} {rx} (h : s.delivered rx = none) :
    s.nm.receive rx = .ok (none, [], s.nm) := by
  cases rx with
  | none => rfl
  | some p =>
    simp only [delivered] at h
    split at h
    · simp [NM.receive, *]
    · cases h

theorem receive_some {s : Node} {rx p} (hi : s.nm.idx.toNat < 5) (h : s.delivered rx = some p) :
    s.nm.receive rx = .ok (some p, [p], s.nm.push p.id) := by
  cases rx with
  | none => cases h
  | some q =>
    simp only [delivered] at h
    split at h
    · cases h
    · cases h
      simp [NM.receive, *, NM.add_eq_push hi, bind, Except.bind, pure, Except.pure]

/-- The mesh layer delivers a packet exactly when `delivered` says so. -/
theorem receive_iff {s : Node} {rx p} (hi : s.nm.idx.toNat < 5) :
    (∃ out nm', s.nm.receive rx = .ok (some p, out, nm')) ↔ s.delivered rx = some p := by
  constructor
  · rintro ⟨out, nm', h⟩
    cases hd : s.delivered rx with
    | none => rw [receive_none hd] at h; cases h
    | some q => rw [receive_some hi hd] at h; cases h; rfl
  · intro h; exact ⟨_, _, receive_some hi h⟩

theorem radioTick_none {plat now rx} {s : Node} (h : s.delivered rx = none) :
    s.radioTick plat now rx =
      (s.handleEvent plat now none (s.timerExpired now)).bind (finishTick plat now) := by
  simp only [radioTick, receive_none h, bind, Except.bind, List.append_nil]

theorem radioTick_some {plat now rx p} {s : Node} (hi : s.nm.idx.toNat < 5)
    (h : s.delivered rx = some p) :
    s.radioTick plat now rx =
      (handleEvent plat now (some p) .none (afterAccept p s)).bind (finishTick plat now) := by
  simp only [radioTick, receive_some hi h, bind, Except.bind]
  rfl

/-- The node after a slave handled a set-effect packet. -/
def afterSlaveEffect (now : U32) (p : Packet) (s : Node) : Node :=
  { afterAccept p s with
    effectChangeSeenAt :=
      if (p.data[0].toNat : Int) ≠ s.effectIndex.toInt ∨ p.data[2] ≠ s.setEffectPacket.data[2]
      then now else s.effectChangeSeenAt
    setEffectPacket := p
    effectIndex := p.data[0] }

/-- The time field of a heartbeat. -/
def _root_.Firefly.Packet.timeField (p : Packet) : U32 :=
  (p.data[3].setWidth 32) ||| (p.data[2].setWidth 32 <<< 8) |||
    (p.data[1].setWidth 32 <<< 16) ||| (p.data[0].setWidth 32 <<< 24)

/-- The node after a master changed the effect by itself. -/
def afterChange (plat : Platform) (now : U32) (e pal : U16) (r : Rand) (s : Node) : Node :=
  let p := s.packet.writeSetEffect (e.setWidth 8) 0 (pal.setWidth 8)
  let s := { s with rand := r, effectIndex := e.setWidth 8, setEffectPacket := p }
  { afterSend plat p s with
    packet := stamped plat p s
    timers := { s.timers with changeEffect := now + kChangeEffectInterval } }

/-- Everything one radio tick can do. -/
inductive TickCase (plat : Platform) (now : U32) (rx : Option Packet) (s : Node) : Node → Prop
  | slaveQuiet (hd : s.delivered rx = none) (hs : s.state = .slave)
      (ht : s.timerExpired now ≠ .heartbeat) : TickCase plat now rx s s
  | masterQuiet (hd : s.delivered rx = none) (hs : s.state = .master)
      (ht : s.timerExpired now = .none) : TickCase plat now rx s s
  | takeOver (hd : s.delivered rx = none) (hs : s.state = .slave)
      (ht : s.timerExpired now = .heartbeat) :
      TickCase plat now rx s
        (afterBeginMaster plat now { s with timers := { s.timers with heartbeat := 0 } })
  | beat (hd : s.delivered rx = none) (hs : s.state = .master)
      (ht : s.timerExpired now = .heartbeat) :
      TickCase plat now rx s { afterHeartbeat plat now s with
        timers := { s.timers with heartbeat := now + kMasterHeartbeatInterval } }
  | change (hd : s.delivered rx = none) (hs : s.state = .master)
      (ht : s.timerExpired now = .changeEffect) (e pal : U16) (r r' : Rand)
      (he : randomRange plat 0 (s.numEffects.setWidth 16) s.rand = .ok (e, r))
      (hp : randomRange plat 0 (s.numPalettes.setWidth 16) r = .ok (pal, r')) :
      TickCase plat now rx s (afterChange plat now e pal r' s)
  | repeat (hd : s.delivered rx = none) (hs : s.state = .master)
      (ht : s.timerExpired now = .broadcastEffect) :
      TickCase plat now rx s { afterSend plat s.setEffectPacket s with
        setEffectPacket := stamped plat s.setEffectPacket s
        timers := { s.timers with broadcastEffect := now + kBroadcastEffectInterval } }
  | slaveHeartbeat (p) (hd : s.delivered rx = some p) (hs : s.state = .slave)
      (hp : p.type = .heartbeat) (hl : plat = .host → p.len = 4) :
      TickCase plat now rx s
        (armSlaveTimeout now { afterAccept p s with millisOffset := p.timeField - now })
  | slaveClaim (p) (hd : s.delivered rx = some p) (hs : s.state = .slave)
      (hp : p.type = .claimMaster) :
      TickCase plat now rx s (armSlaveTimeout now (afterAccept p s))
  | slaveEffect (p) (hd : s.delivered rx = some p) (hs : s.state = .slave)
      (hp : p.type = .setEffect)
      (hl : plat = .host → p.len = 3 ∧ ((p.data[0].toNat : Int) ≠ s.effectIndex.toInt ∨
        s.setEffectPacket.type = .setEffect ∧ s.setEffectPacket.len = 3)) :
      TickCase plat now rx s (afterSlaveEffect now p s)
  | slaveControl (p) (hd : s.delivered rx = some p) (hs : s.state = .slave)
      (hp : p.type = .setControl) :
      TickCase plat now rx s
        { afterAccept p s with effectChangeSeenAt := now, setEffectPacket := p }
  | other (p n h) (hd : s.delivered rx = some p) (hp : p.type = .other n h) :
      TickCase plat now rx s (afterAccept p s)
  | electionWon (p) (hd : s.delivered rx = some p) (hs : s.state = .master)
      (hp : p.type = .heartbeat) (he : p.id < electionId plat s.rand) :
      TickCase plat now rx s
        (let s := { afterAccept p s with rand := s.rand.rest }
         let q := { s.packet with type := .claimMaster, len := 0 }
         { afterSend plat q s with packet := stamped plat q s })
  | electionLost (p) (hd : s.delivered rx = some p) (hs : s.state = .master)
      (hp : p.type = .heartbeat) (he : ¬ p.id < electionId plat s.rand) :
      TickCase plat now rx s (afterBeginSlave now { afterAccept p s with rand := s.rand.rest })
  | masterClaim (p) (hd : s.delivered rx = some p) (hs : s.state = .master)
      (hp : p.type = .claimMaster) :
      TickCase plat now rx s (afterBeginSlave now (afterAccept p s))
  | masterEffect (p) (hd : s.delivered rx = some p) (hs : s.state = .master)
      (hp : p.type = .setEffect) (hl : plat = .host → p.len = 3) :
      TickCase plat now rx s
        (setTimer now .changeEffect (p.data[1].setWidth 32 * 1000)
          { afterAccept p s with setEffectPacket := p, effectIndex := p.data[0] })
  | masterControl (p) (hd : s.delivered rx = some p) (hs : s.state = .master)
      (hp : p.type = .setControl) (hl : plat = .host → p.len = 4) :
      TickCase plat now rx s
        (setTimer now .changeEffect (p.data[0].setWidth 32 * 1000)
          { afterAccept p s with setEffectPacket := p })

theorem bind_ok {α β} {x : Except Fault α} {f : α → Except Fault β} {b : β}
    (h : x.bind f = .ok b) : ∃ a, x = .ok a ∧ f a = .ok b := by
  cases x with
  | error e => cases h
  | ok a => exact ⟨a, rfl, h⟩

theorem readTime_eq {plat} {p : Packet} (hp : p.type = .heartbeat) :
    p.readTimeFromHeartbeat plat =
      if plat = .host ∧ p.len ≠ 4 then .error .assertFail else .ok p.timeField := by
  cases plat <;> by_cases h : p.len = 4#8 <;>
    simp [Packet.readTimeFromHeartbeat, hostAssert, hp, h, bind, Except.bind, pure, Except.pure,
      Packet.timeField]

theorem readEffect_eq {plat} {p : Packet} :
    p.readEffectIndexFromSetEffect plat =
      if plat = .host ∧ ¬ (p.type = .setEffect ∧ p.len = 3) then .error .assertFail
      else .ok p.data[0] := by
  cases plat <;> by_cases h : p.len = 3#8 <;> by_cases h' : p.type = .setEffect <;>
    simp [Packet.readEffectIndexFromSetEffect, hostAssert, h, h', bind, Except.bind, pure,
      Except.pure]

theorem readDelay_eq {plat} {p : Packet} :
    p.readDelayFromSetEffect plat =
      if plat = .host ∧ ¬ (p.type = .setEffect ∧ p.len = 3) then .error .assertFail
      else .ok p.data[1] := by
  cases plat <;> by_cases h : p.len = 3#8 <;> by_cases h' : p.type = .setEffect <;>
    simp [Packet.readDelayFromSetEffect, hostAssert, h, h', bind, Except.bind, pure,
      Except.pure]

theorem readPalette_eq {plat} {p : Packet} :
    p.readPaletteIndexFromSetEffect plat =
      if plat = .host ∧ ¬ (p.type = .setEffect ∧ p.len = 3) then .error .assertFail
      else .ok p.data[2] := by
  cases plat <;> by_cases h : p.len = 3#8 <;> by_cases h' : p.type = .setEffect <;>
    simp [Packet.readPaletteIndexFromSetEffect, hostAssert, h, h', bind, Except.bind, pure,
      Except.pure]

theorem readControlDelay_eq {plat} {p : Packet} :
    p.readDelayFromSetControl plat =
      if plat = .host ∧ ¬ (p.type = .setControl ∧ p.len = 4) then .error .assertFail
      else .ok p.data[0] := by
  cases plat <;> by_cases h : p.len = 4#8 <;> by_cases h' : p.type = .setControl <;>
    simp [Packet.readDelayFromSetControl, hostAssert, h, h', bind, Except.bind, pure,
      Except.pure]

theorem handleEvent_slavePacket {plat now p t} {s : Node} (h : s.state = .slave) :
    s.handleEvent plat now (some p) t = s.handleSlavePacket plat now p := by
  simp only [handleEvent, h]

theorem handleEvent_masterPacket {plat now p t} {s : Node} (h : s.state = .master) :
    s.handleEvent plat now (some p) t = s.handleMasterPacket plat now p := by
  simp only [handleEvent, h]

theorem handleEvent_slaveTimer {plat now t} {s : Node} (h : s.state = .slave) (ht : t ≠ .none) :
    s.handleEvent plat now none t = .ok (s.handleSlaveTimer t) := by
  unfold handleEvent
  simp only [if_neg ht]
  rw [h]
  rfl

theorem handleEvent_masterTimer {plat now t} {s : Node} (h : s.state = .master) (ht : t ≠ .none) :
    s.handleEvent plat now none t = s.handleMasterTimer plat now t := by
  unfold handleEvent
  simp only [if_neg ht]
  rw [h]

/-- When a radio tick aborts in the host build, on a delivered packet. -/
def PacketAborts (s : Node) (p : Packet) : Prop :=
  (p.type = .heartbeat ∧ s.state = .slave ∧ p.len ≠ 4) ∨
  (p.type = .setEffect ∧ p.len ≠ 3) ∨
  (p.type = .setControl ∧ s.state = .master ∧ p.len ≠ 4) ∨
  (p.type = .setEffect ∧ s.state = .slave ∧ (p.data[0].toNat : Int) = s.effectIndex.toInt ∧
    ¬ (s.setEffectPacket.type = .setEffect ∧ s.setEffectPacket.len = 3))

/-- The complete result of one radio tick. -/
theorem radioTick_result {plat now rx} {s : Node} (wf : s.WF) :
    (∃ s', s.radioTick plat now rx = .ok s' ∧ TickCase plat now rx s s') ∨
    (plat = .host ∧ s.radioTick plat now rx = .error .assertFail ∧
      ∃ p, s.delivered rx = some p ∧ PacketAborts s p) ∨
    (plat = .host ∧ s.radioTick plat now rx = .error .divByZero ∧ s.delivered rx = none ∧
      s.state = .master ∧ s.timerExpired now = .changeEffect ∧
      (s.numEffects = 0 ∨ s.numPalettes = 0)) := by
  cases hd : s.delivered rx with
  | none =>
    rw [radioTick_none hd]
    cases hs : s.state with
    | slave =>
      have hn : s.next = .slave := by rw [wf.next, hs]
      by_cases ht : s.timerExpired now = .heartbeat
      · left
        refine ⟨_, ?_, .takeOver hd hs ht⟩
        rw [ht, handleEvent_slaveTimer hs (by decide)]
        exact (finishTick_master (s := { s with next := .master }) wf.idx hs rfl).trans rfl
      · left
        refine ⟨_, ?_, .slaveQuiet hd hs ht⟩
        have : s.handleEvent plat now none (s.timerExpired now) = .ok s := by
          by_cases h0 : s.timerExpired now = .none
          · rw [h0]; rfl
          · rw [handleEvent_slaveTimer hs h0]
            cases h : s.timerExpired now <;> first | rfl | exact absurd h ht
        rw [this]
        exact finishTick_same (by exact wf.next)
    | master =>
      have hn : s.next = .master := by rw [wf.next, hs]
      cases ht : s.timerExpired now with
      | none =>
        left
        refine ⟨_, ?_, .masterQuiet hd hs ht⟩
        simp only [handleEvent, if_pos, Except.bind, pure, Except.pure]
        exact finishTick_same (by exact wf.next)
      | heartbeat =>
        left
        refine ⟨_, ?_, .beat hd hs ht⟩
        rw [handleEvent_masterTimer hs (by decide)]
        simp only [handleMasterTimer, sendHeartbeat_eq wf.idx, bind, Except.bind,
          pure, Except.pure, setTimer]
        exact finishTick_same (by exact wf.next)
      | changeEffect =>
        rw [handleEvent_masterTimer hs (by decide)]
        simp only [handleMasterTimer, bind]
        cases he : randomRange plat 0 (s.numEffects.setWidth 16) s.rand with
        | error f =>
          right; right
          cases plat with
          | arduino => simp only [randomRange] at he; split at he <;> cases he
          | host =>
            simp only [randomRange] at he
            split at he
            · rename_i h0
              cases he
              refine ⟨rfl, rfl, by simp, by simp, by simp, Or.inl (by bv_omega)⟩
            · cases he
        | ok er =>
          obtain ⟨e, r⟩ := er
          dsimp only [Except.bind]
          cases hp : randomRange plat 0 (s.numPalettes.setWidth 16) r with
          | error f =>
            right; right
            cases plat with
            | arduino => simp only [randomRange] at hp; split at hp <;> cases hp
            | host =>
              simp only [randomRange] at hp
              split at hp
              · rename_i h0
                cases hp
                refine ⟨rfl, rfl, by simp, by simp, by simp, Or.inr (by bv_omega)⟩
              · cases hp
          | ok pr =>
            obtain ⟨pal, r'⟩ := pr
            left
            refine ⟨_, ?_, .change hd hs ht e pal r r' he hp⟩
            dsimp only [Except.bind]
            rw [nmSend_eq (by exact wf.idx)]
            exact finishTick_same (by exact wf.next)
      | broadcastEffect =>
        left
        refine ⟨_, ?_, .repeat hd hs ht⟩
        rw [handleEvent_masterTimer hs (by decide)]
        simp only [handleMasterTimer, nmSend_eq wf.idx, bind, Except.bind,
          pure, Except.pure, setTimer]
        exact finishTick_same (by exact wf.next)
  | some p =>
    rw [radioTick_some wf.idx hd]
    have hidx : (afterAccept p s).nm.idx.toNat < 5 := NM.push_idx wf.idx p.id
    cases hs : s.state with
    | slave =>
      have hs' : (afterAccept p s).state = .slave := hs
      have hn : s.next = .slave := by rw [wf.next, hs]
      rw [handleEvent_slavePacket hs']
      simp only [handleSlavePacket]
      cases hp : p.type with
      | heartbeat =>
        dsimp only
        rw [readTime_eq hp]
        by_cases hl : plat = .host ∧ p.len ≠ 4
        · right; left
          rw [if_pos hl]
          exact ⟨hl.1, rfl, p, rfl, Or.inl ⟨hp, hs, hl.2⟩⟩
        · left
          rw [if_neg hl]
          refine ⟨_, ?_, .slaveHeartbeat p hd hs hp (by grind)⟩
          exact finishTick_same (by exact wf.next)
      | claimMaster =>
        left
        exact ⟨_, finishTick_same (by exact wf.next), .slaveClaim p hd hs hp⟩
      | setEffect =>
        dsimp only
        rw [readEffect_eq, readPalette_eq]
        by_cases hl : plat = .host ∧ ¬ (p.type = .setEffect ∧ p.len = 3)
        · right; left
          rw [if_pos hl]
          exact ⟨hl.1, rfl, p, rfl, Or.inr (Or.inl ⟨hp, by grind⟩)⟩
        · rw [if_neg hl, if_neg hl]
          simp only [bind, Except.bind, pure, Except.pure]
          by_cases hc : (p.data[0].toNat : Int) ≠ (afterAccept p s).effectIndex.toInt
          · left
            have hc' : (p.data[0].toNat : Int) ≠ s.effectIndex.toInt := hc
            refine ⟨_, ?_, .slaveEffect p hd hs hp (by grind)⟩
            rw [if_pos hc]
            dsimp only
            refine (finishTick_same (by exact wf.next)).trans ?_
            simp only [afterSlaveEffect, if_pos (Or.inl hc'), if_true]
          · have hc' : ¬ (p.data[0].toNat : Int) ≠ s.effectIndex.toInt := hc
            rw [if_neg hc, readPalette_eq]
            by_cases hq : plat = .host ∧
                ¬ (s.setEffectPacket.type = .setEffect ∧ s.setEffectPacket.len = 3)
            · right; left
              have hq' : plat = .host ∧ ¬ ((afterAccept p s).setEffectPacket.type = .setEffect ∧
                  (afterAccept p s).setEffectPacket.len = 3) := hq
              rw [if_pos hq']
              exact ⟨hq.1, rfl, p, rfl, Or.inr (Or.inr (Or.inr ⟨hp, hs, by grind, hq.2⟩))⟩
            · left
              have hq' : ¬ (plat = .host ∧ ¬ ((afterAccept p s).setEffectPacket.type = .setEffect ∧
                  (afterAccept p s).setEffectPacket.len = 3)) := hq
              refine ⟨_, ?_, .slaveEffect p hd hs hp (by grind)⟩
              rw [if_neg hq']
              dsimp only
              refine (finishTick_same (by exact wf.next)).trans ?_
              have e1 : (afterAccept p s).setEffectPacket = s.setEffectPacket := rfl
              have e2 : (afterAccept p s).effectChangeSeenAt = s.effectChangeSeenAt := rfl
              by_cases hpal : p.data[2] = s.setEffectPacket.data[2]
              · simp only [afterSlaveEffect, e1, e2, hpal, hc', ne_eq, not_true, decide_false,
                  or_self, if_false, Bool.false_eq_true]
              · simp only [afterSlaveEffect, e1, e2, hpal, ne_eq, not_false_eq_true, decide_true,
                  or_true, if_true]
      | setControl =>
        left
        exact ⟨_, finishTick_same (by exact wf.next), .slaveControl p hd hs hp⟩
      | other n h =>
        left
        exact ⟨_, finishTick_same (by exact wf.next), .other p n h hd hp⟩
    | master =>
      have hs' : (afterAccept p s).state = .master := hs
      have hn : s.next = .master := by rw [wf.next, hs]
      rw [handleEvent_masterPacket hs']
      simp only [handleMasterPacket]
      cases hp : p.type with
      | heartbeat =>
        left
        dsimp only
        simp only [performMasterElection, randomRange_election, bind, Except.bind]
        have e0 : (afterAccept p s).rand = s.rand := rfl
        rw [e0]
        by_cases he : p.id < electionId plat s.rand
        · refine ⟨_, ?_, .electionWon p hd hs hp he⟩
          rw [if_pos he]
          rw [nmSend_eq (by exact hidx)]
          exact finishTick_same (by exact wf.next)
        · refine ⟨_, ?_, .electionLost p hd hs hp he⟩
          rw [if_neg he]
          exact (finishTick_slave (by exact hs) rfl).trans rfl
      | claimMaster =>
        left
        exact ⟨_, (finishTick_slave (plat := plat) (by exact hs) rfl).trans rfl,
          .masterClaim p hd hs hp⟩
      | setEffect =>
        dsimp only
        rw [readEffect_eq, readDelay_eq]
        by_cases hl : plat = .host ∧ ¬ (p.type = .setEffect ∧ p.len = 3)
        · right; left
          rw [if_pos hl]
          exact ⟨hl.1, rfl, p, rfl, Or.inr (Or.inl ⟨hp, by grind⟩)⟩
        · rw [if_neg hl, if_neg hl]
          left
          refine ⟨_, ?_, .masterEffect p hd hs hp (by grind)⟩
          exact finishTick_same (by exact wf.next)
      | setControl =>
        dsimp only
        rw [readControlDelay_eq]
        by_cases hl : plat = .host ∧ ¬ (p.type = .setControl ∧ p.len = 4)
        · right; left
          rw [if_pos hl]
          exact ⟨hl.1, rfl, p, rfl, Or.inr (Or.inr (Or.inl ⟨hp, hs, by grind⟩))⟩
        · rw [if_neg hl]
          left
          refine ⟨_, ?_, .masterControl p hd hs hp (by grind)⟩
          exact finishTick_same (by exact wf.next)
      | other n h =>
        left
        exact ⟨_, finishTick_same (by exact wf.next), .other p n h hd hp⟩

theorem radioTick_cases {plat now rx} {s s' : Node} (wf : s.WF)
    (h : s.radioTick plat now rx = .ok s') : TickCase plat now rx s s' := by
  rcases radioTick_result (plat := plat) (now := now) (rx := rx) wf with ⟨t, h1, h2⟩ | h1 | h1
  · rw [h] at h1; cases h1; exact h2
  · rw [h] at h1; cases h1.2.1
  · rw [h] at h1; cases h1.2.1

/-! ### Fields of the result states -/

@[simp] theorem afterAccept_nm (p : Packet) (s : Node) :
    (afterAccept p s).nm = s.nm.push p.id := rfl
@[simp] theorem afterAccept_rand (p : Packet) (s : Node) :
    (afterAccept p s).rand = s.rand := rfl
@[simp] theorem afterAccept_sent (p : Packet) (s : Node) :
    (afterAccept p s).sent = s.sent ++ [p] := rfl
@[simp] theorem afterAccept_state (p : Packet) (s : Node) :
    (afterAccept p s).state = s.state := rfl
@[simp] theorem afterAccept_next (p : Packet) (s : Node) :
    (afterAccept p s).next = s.next := rfl
@[simp] theorem afterAccept_timers (p : Packet) (s : Node) :
    (afterAccept p s).timers = s.timers := rfl
@[simp] theorem afterAccept_effectChangeSeenAt (p : Packet) (s : Node) :
    (afterAccept p s).effectChangeSeenAt = s.effectChangeSeenAt := rfl
@[simp] theorem afterAccept_millisOffset (p : Packet) (s : Node) :
    (afterAccept p s).millisOffset = s.millisOffset := rfl
@[simp] theorem afterAccept_effectIndex (p : Packet) (s : Node) :
    (afterAccept p s).effectIndex = s.effectIndex := rfl
@[simp] theorem afterAccept_numPalettes (p : Packet) (s : Node) :
    (afterAccept p s).numPalettes = s.numPalettes := rfl
@[simp] theorem afterAccept_numEffects (p : Packet) (s : Node) :
    (afterAccept p s).numEffects = s.numEffects := rfl
@[simp] theorem afterAccept_packet (p : Packet) (s : Node) :
    (afterAccept p s).packet = s.packet := rfl
@[simp] theorem afterAccept_setEffectPacket (p : Packet) (s : Node) :
    (afterAccept p s).setEffectPacket = s.setEffectPacket := rfl
@[simp] theorem afterAccept_tickRun (p : Packet) (s : Node) :
    (afterAccept p s).tickRun = s.tickRun := rfl
@[simp] theorem afterSend_nm (plat) (p : Packet) (s : Node) :
    (afterSend plat p s).nm = s.nm.push (sendId plat s.rand) := rfl
@[simp] theorem afterSend_rand (plat) (p : Packet) (s : Node) :
    (afterSend plat p s).rand = s.rand.rest := rfl
@[simp] theorem afterSend_sent (plat) (p : Packet) (s : Node) :
    (afterSend plat p s).sent = s.sent ++ [stamped plat p s] := rfl
@[simp] theorem afterSend_state (plat) (p : Packet) (s : Node) :
    (afterSend plat p s).state = s.state := rfl
@[simp] theorem afterSend_next (plat) (p : Packet) (s : Node) :
    (afterSend plat p s).next = s.next := rfl
@[simp] theorem afterSend_timers (plat) (p : Packet) (s : Node) :
    (afterSend plat p s).timers = s.timers := rfl
@[simp] theorem afterSend_effectChangeSeenAt (plat) (p : Packet) (s : Node) :
    (afterSend plat p s).effectChangeSeenAt = s.effectChangeSeenAt := rfl
@[simp] theorem afterSend_millisOffset (plat) (p : Packet) (s : Node) :
    (afterSend plat p s).millisOffset = s.millisOffset := rfl
@[simp] theorem afterSend_effectIndex (plat) (p : Packet) (s : Node) :
    (afterSend plat p s).effectIndex = s.effectIndex := rfl
@[simp] theorem afterSend_numPalettes (plat) (p : Packet) (s : Node) :
    (afterSend plat p s).numPalettes = s.numPalettes := rfl
@[simp] theorem afterSend_numEffects (plat) (p : Packet) (s : Node) :
    (afterSend plat p s).numEffects = s.numEffects := rfl
@[simp] theorem afterSend_packet (plat) (p : Packet) (s : Node) :
    (afterSend plat p s).packet = s.packet := rfl
@[simp] theorem afterSend_setEffectPacket (plat) (p : Packet) (s : Node) :
    (afterSend plat p s).setEffectPacket = s.setEffectPacket := rfl
@[simp] theorem afterSend_tickRun (plat) (p : Packet) (s : Node) :
    (afterSend plat p s).tickRun = s.tickRun := rfl
@[simp] theorem armSlaveTimeout_nm (now) (s : Node) :
    (armSlaveTimeout now s).nm = s.nm := rfl
@[simp] theorem armSlaveTimeout_rand (now) (s : Node) :
    (armSlaveTimeout now s).rand = s.rand.rest := rfl
@[simp] theorem armSlaveTimeout_sent (now) (s : Node) :
    (armSlaveTimeout now s).sent = s.sent := rfl
@[simp] theorem armSlaveTimeout_state (now) (s : Node) :
    (armSlaveTimeout now s).state = s.state := rfl
@[simp] theorem armSlaveTimeout_next (now) (s : Node) :
    (armSlaveTimeout now s).next = s.next := rfl
@[simp] theorem armSlaveTimeout_timers (now) (s : Node) :
    (armSlaveTimeout now s).timers = { s.timers with heartbeat := now + BitVec.ofNat 32 (5000 + s.rand 0 % 2000) } := by
  first | rw [armSlaveTimeout_eq] | rw [afterBeginSlave, armSlaveTimeout_eq]
@[simp] theorem armSlaveTimeout_effectChangeSeenAt (now) (s : Node) :
    (armSlaveTimeout now s).effectChangeSeenAt = s.effectChangeSeenAt := rfl
@[simp] theorem armSlaveTimeout_millisOffset (now) (s : Node) :
    (armSlaveTimeout now s).millisOffset = s.millisOffset := rfl
@[simp] theorem armSlaveTimeout_effectIndex (now) (s : Node) :
    (armSlaveTimeout now s).effectIndex = s.effectIndex := rfl
@[simp] theorem armSlaveTimeout_numPalettes (now) (s : Node) :
    (armSlaveTimeout now s).numPalettes = s.numPalettes := rfl
@[simp] theorem armSlaveTimeout_numEffects (now) (s : Node) :
    (armSlaveTimeout now s).numEffects = s.numEffects := rfl
@[simp] theorem armSlaveTimeout_packet (now) (s : Node) :
    (armSlaveTimeout now s).packet = s.packet := rfl
@[simp] theorem armSlaveTimeout_setEffectPacket (now) (s : Node) :
    (armSlaveTimeout now s).setEffectPacket = s.setEffectPacket := rfl
@[simp] theorem armSlaveTimeout_tickRun (now) (s : Node) :
    (armSlaveTimeout now s).tickRun = s.tickRun := rfl
@[simp] theorem afterBeginSlave_nm (now) (s : Node) :
    (afterBeginSlave now s).nm = s.nm := rfl
@[simp] theorem afterBeginSlave_rand (now) (s : Node) :
    (afterBeginSlave now s).rand = s.rand.rest := rfl
@[simp] theorem afterBeginSlave_sent (now) (s : Node) :
    (afterBeginSlave now s).sent = s.sent := rfl
@[simp] theorem afterBeginSlave_state (now) (s : Node) :
    (afterBeginSlave now s).state = .slave := rfl
@[simp] theorem afterBeginSlave_next (now) (s : Node) :
    (afterBeginSlave now s).next = .slave := rfl
@[simp] theorem afterBeginSlave_timers (now) (s : Node) :
    (afterBeginSlave now s).timers = { s.timers with heartbeat := now + BitVec.ofNat 32 (5000 + s.rand 0 % 2000) } := by
  first | rw [armSlaveTimeout_eq] | rw [afterBeginSlave, armSlaveTimeout_eq]
@[simp] theorem afterBeginSlave_effectChangeSeenAt (now) (s : Node) :
    (afterBeginSlave now s).effectChangeSeenAt = s.effectChangeSeenAt := rfl
@[simp] theorem afterBeginSlave_millisOffset (now) (s : Node) :
    (afterBeginSlave now s).millisOffset = s.millisOffset := rfl
@[simp] theorem afterBeginSlave_effectIndex (now) (s : Node) :
    (afterBeginSlave now s).effectIndex = s.effectIndex := rfl
@[simp] theorem afterBeginSlave_numPalettes (now) (s : Node) :
    (afterBeginSlave now s).numPalettes = s.numPalettes := rfl
@[simp] theorem afterBeginSlave_numEffects (now) (s : Node) :
    (afterBeginSlave now s).numEffects = s.numEffects := rfl
@[simp] theorem afterBeginSlave_packet (now) (s : Node) :
    (afterBeginSlave now s).packet = s.packet := rfl
@[simp] theorem afterBeginSlave_setEffectPacket (now) (s : Node) :
    (afterBeginSlave now s).setEffectPacket = s.setEffectPacket := rfl
@[simp] theorem afterBeginSlave_tickRun (now) (s : Node) :
    (afterBeginSlave now s).tickRun = s.tickRun := rfl
@[simp] theorem afterHeartbeat_nm (plat now) (s : Node) :
    (afterHeartbeat plat now s).nm = s.nm.push (sendId plat s.rand) := rfl
@[simp] theorem afterHeartbeat_rand (plat now) (s : Node) :
    (afterHeartbeat plat now s).rand = s.rand.rest := rfl
@[simp] theorem afterHeartbeat_sent (plat now) (s : Node) :
    (afterHeartbeat plat now s).sent = s.sent ++ [stamped plat (s.packet.writeHeartbeat (s.getNetworkMillis now)) s] := rfl
@[simp] theorem afterHeartbeat_state (plat now) (s : Node) :
    (afterHeartbeat plat now s).state = s.state := rfl
@[simp] theorem afterHeartbeat_next (plat now) (s : Node) :
    (afterHeartbeat plat now s).next = s.next := rfl
@[simp] theorem afterHeartbeat_timers (plat now) (s : Node) :
    (afterHeartbeat plat now s).timers = s.timers := rfl
@[simp] theorem afterHeartbeat_effectChangeSeenAt (plat now) (s : Node) :
    (afterHeartbeat plat now s).effectChangeSeenAt = s.effectChangeSeenAt := rfl
@[simp] theorem afterHeartbeat_millisOffset (plat now) (s : Node) :
    (afterHeartbeat plat now s).millisOffset = s.millisOffset := rfl
@[simp] theorem afterHeartbeat_effectIndex (plat now) (s : Node) :
    (afterHeartbeat plat now s).effectIndex = s.effectIndex := rfl
@[simp] theorem afterHeartbeat_numPalettes (plat now) (s : Node) :
    (afterHeartbeat plat now s).numPalettes = s.numPalettes := rfl
@[simp] theorem afterHeartbeat_numEffects (plat now) (s : Node) :
    (afterHeartbeat plat now s).numEffects = s.numEffects := rfl
@[simp] theorem afterHeartbeat_packet (plat now) (s : Node) :
    (afterHeartbeat plat now s).packet = stamped plat (s.packet.writeHeartbeat (s.getNetworkMillis now)) s := rfl
@[simp] theorem afterHeartbeat_setEffectPacket (plat now) (s : Node) :
    (afterHeartbeat plat now s).setEffectPacket = s.setEffectPacket := rfl
@[simp] theorem afterHeartbeat_tickRun (plat now) (s : Node) :
    (afterHeartbeat plat now s).tickRun = s.tickRun := rfl
@[simp] theorem afterBeginMaster_nm (plat now) (s : Node) :
    (afterBeginMaster plat now s).nm = s.nm.push (sendId plat s.rand) := rfl
@[simp] theorem afterBeginMaster_rand (plat now) (s : Node) :
    (afterBeginMaster plat now s).rand = s.rand.rest := rfl
@[simp] theorem afterBeginMaster_sent (plat now) (s : Node) :
    (afterBeginMaster plat now s).sent = s.sent ++ [stamped plat (s.packet.writeHeartbeat (s.getNetworkMillis now)) s] := rfl
@[simp] theorem afterBeginMaster_state (plat now) (s : Node) :
    (afterBeginMaster plat now s).state = .master := rfl
@[simp] theorem afterBeginMaster_next (plat now) (s : Node) :
    (afterBeginMaster plat now s).next = .master := rfl
@[simp] theorem afterBeginMaster_timers (plat now) (s : Node) :
    (afterBeginMaster plat now s).timers =
      { none := s.timers.none
        heartbeat := now + kMasterHeartbeatInterval
        broadcastEffect := now + kBroadcastEffectInterval
        changeEffect := (if takeoverDelay now s.effectChangeSeenAt = 0 then 0
          else now + takeoverDelay now s.effectChangeSeenAt) } := rfl
@[simp] theorem afterBeginMaster_effectChangeSeenAt (plat now) (s : Node) :
    (afterBeginMaster plat now s).effectChangeSeenAt = s.effectChangeSeenAt := rfl
@[simp] theorem afterBeginMaster_millisOffset (plat now) (s : Node) :
    (afterBeginMaster plat now s).millisOffset = s.millisOffset := rfl
@[simp] theorem afterBeginMaster_effectIndex (plat now) (s : Node) :
    (afterBeginMaster plat now s).effectIndex = s.effectIndex := rfl
@[simp] theorem afterBeginMaster_numPalettes (plat now) (s : Node) :
    (afterBeginMaster plat now s).numPalettes = s.numPalettes := rfl
@[simp] theorem afterBeginMaster_numEffects (plat now) (s : Node) :
    (afterBeginMaster plat now s).numEffects = s.numEffects := rfl
@[simp] theorem afterBeginMaster_packet (plat now) (s : Node) :
    (afterBeginMaster plat now s).packet = stamped plat (s.packet.writeHeartbeat (s.getNetworkMillis now)) s := rfl
@[simp] theorem afterBeginMaster_setEffectPacket (plat now) (s : Node) :
    (afterBeginMaster plat now s).setEffectPacket = s.setEffectPacket := rfl
@[simp] theorem afterBeginMaster_tickRun (plat now) (s : Node) :
    (afterBeginMaster plat now s).tickRun = s.tickRun := rfl
@[simp] theorem afterChange_nm (plat now e pal r) (s : Node) :
    (afterChange plat now e pal r s).nm = s.nm.push (sendId plat r) := rfl
@[simp] theorem afterChange_rand (plat now e pal r) (s : Node) :
    (afterChange plat now e pal r s).rand = r.rest := rfl
@[simp] theorem afterChange_sent (plat now e pal r) (s : Node) :
    (afterChange plat now e pal r s).sent = s.sent ++ [{ s.packet.writeSetEffect (e.setWidth 8) 0 (pal.setWidth 8) with id := sendId plat r }] := rfl
@[simp] theorem afterChange_state (plat now e pal r) (s : Node) :
    (afterChange plat now e pal r s).state = s.state := rfl
@[simp] theorem afterChange_next (plat now e pal r) (s : Node) :
    (afterChange plat now e pal r s).next = s.next := rfl
@[simp] theorem afterChange_timers (plat now e pal r) (s : Node) :
    (afterChange plat now e pal r s).timers = { s.timers with changeEffect := now + kChangeEffectInterval } := rfl
@[simp] theorem afterChange_effectChangeSeenAt (plat now e pal r) (s : Node) :
    (afterChange plat now e pal r s).effectChangeSeenAt = s.effectChangeSeenAt := rfl
@[simp] theorem afterChange_millisOffset (plat now e pal r) (s : Node) :
    (afterChange plat now e pal r s).millisOffset = s.millisOffset := rfl
@[simp] theorem afterChange_effectIndex (plat now e pal r) (s : Node) :
    (afterChange plat now e pal r s).effectIndex = e.setWidth 8 := rfl
@[simp] theorem afterChange_numPalettes (plat now e pal r) (s : Node) :
    (afterChange plat now e pal r s).numPalettes = s.numPalettes := rfl
@[simp] theorem afterChange_numEffects (plat now e pal r) (s : Node) :
    (afterChange plat now e pal r s).numEffects = s.numEffects := rfl
@[simp] theorem afterChange_packet (plat now e pal r) (s : Node) :
    (afterChange plat now e pal r s).packet = { s.packet.writeSetEffect (e.setWidth 8) 0 (pal.setWidth 8) with id := sendId plat r } := rfl
@[simp] theorem afterChange_setEffectPacket (plat now e pal r) (s : Node) :
    (afterChange plat now e pal r s).setEffectPacket = s.packet.writeSetEffect (e.setWidth 8) 0 (pal.setWidth 8) := rfl
@[simp] theorem afterChange_tickRun (plat now e pal r) (s : Node) :
    (afterChange plat now e pal r s).tickRun = s.tickRun := rfl
@[simp] theorem afterSlaveEffect_nm (now) (p : Packet) (s : Node) :
    (afterSlaveEffect now p s).nm = s.nm.push p.id := rfl
@[simp] theorem afterSlaveEffect_rand (now) (p : Packet) (s : Node) :
    (afterSlaveEffect now p s).rand = s.rand := rfl
@[simp] theorem afterSlaveEffect_sent (now) (p : Packet) (s : Node) :
    (afterSlaveEffect now p s).sent = s.sent ++ [p] := rfl
@[simp] theorem afterSlaveEffect_state (now) (p : Packet) (s : Node) :
    (afterSlaveEffect now p s).state = s.state := rfl
@[simp] theorem afterSlaveEffect_next (now) (p : Packet) (s : Node) :
    (afterSlaveEffect now p s).next = s.next := rfl
@[simp] theorem afterSlaveEffect_timers (now) (p : Packet) (s : Node) :
    (afterSlaveEffect now p s).timers = s.timers := rfl
@[simp] theorem afterSlaveEffect_effectChangeSeenAt (now) (p : Packet) (s : Node) :
    (afterSlaveEffect now p s).effectChangeSeenAt = if (p.data[0].toNat : Int) ≠ s.effectIndex.toInt ∨ p.data[2] ≠ s.setEffectPacket.data[2]
      then now else s.effectChangeSeenAt := rfl
@[simp] theorem afterSlaveEffect_millisOffset (now) (p : Packet) (s : Node) :
    (afterSlaveEffect now p s).millisOffset = s.millisOffset := rfl
@[simp] theorem afterSlaveEffect_effectIndex (now) (p : Packet) (s : Node) :
    (afterSlaveEffect now p s).effectIndex = p.data[0] := rfl
@[simp] theorem afterSlaveEffect_numPalettes (now) (p : Packet) (s : Node) :
    (afterSlaveEffect now p s).numPalettes = s.numPalettes := rfl
@[simp] theorem afterSlaveEffect_numEffects (now) (p : Packet) (s : Node) :
    (afterSlaveEffect now p s).numEffects = s.numEffects := rfl
@[simp] theorem afterSlaveEffect_packet (now) (p : Packet) (s : Node) :
    (afterSlaveEffect now p s).packet = s.packet := rfl
@[simp] theorem afterSlaveEffect_setEffectPacket (now) (p : Packet) (s : Node) :
    (afterSlaveEffect now p s).setEffectPacket = p := rfl
@[simp] theorem afterSlaveEffect_tickRun (now) (p : Packet) (s : Node) :
    (afterSlaveEffect now p s).tickRun = s.tickRun := rfl
@[simp] theorem setTimer_nm (now t d) (s : Node) :
    (setTimer now t d s).nm = s.nm := rfl
@[simp] theorem setTimer_rand (now t d) (s : Node) :
    (setTimer now t d s).rand = s.rand := rfl
@[simp] theorem setTimer_sent (now t d) (s : Node) :
    (setTimer now t d s).sent = s.sent := rfl
@[simp] theorem setTimer_state (now t d) (s : Node) :
    (setTimer now t d s).state = s.state := rfl
@[simp] theorem setTimer_next (now t d) (s : Node) :
    (setTimer now t d s).next = s.next := rfl
@[simp] theorem setTimer_timers (now t d) (s : Node) :
    (setTimer now t d s).timers = s.timers.set t (if d = 0 then 0 else now + d) := rfl
@[simp] theorem setTimer_effectChangeSeenAt (now t d) (s : Node) :
    (setTimer now t d s).effectChangeSeenAt = s.effectChangeSeenAt := rfl
@[simp] theorem setTimer_millisOffset (now t d) (s : Node) :
    (setTimer now t d s).millisOffset = s.millisOffset := rfl
@[simp] theorem setTimer_effectIndex (now t d) (s : Node) :
    (setTimer now t d s).effectIndex = s.effectIndex := rfl
@[simp] theorem setTimer_numPalettes (now t d) (s : Node) :
    (setTimer now t d s).numPalettes = s.numPalettes := rfl
@[simp] theorem setTimer_numEffects (now t d) (s : Node) :
    (setTimer now t d s).numEffects = s.numEffects := rfl
@[simp] theorem setTimer_packet (now t d) (s : Node) :
    (setTimer now t d s).packet = s.packet := rfl
@[simp] theorem setTimer_setEffectPacket (now t d) (s : Node) :
    (setTimer now t d s).setEffectPacket = s.setEffectPacket := rfl
@[simp] theorem setTimer_tickRun (now t d) (s : Node) :
    (setTimer now t d s).tickRun = s.tickRun := rfl
@[simp] theorem stamped_type (plat) (p : Packet) (s : Node) : (stamped plat p s).type = p.type := rfl
@[simp] theorem stamped_len (plat) (p : Packet) (s : Node) : (stamped plat p s).len = p.len := rfl
@[simp] theorem stamped_data (plat) (p : Packet) (s : Node) : (stamped plat p s).data = p.data := rfl
@[simp] theorem stamped_id (plat) (p : Packet) (s : Node) :
    (stamped plat p s).id = sendId plat s.rand := rfl

end Node
end Firefly
