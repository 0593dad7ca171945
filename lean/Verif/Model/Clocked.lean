import Verif.Model.StateMachine

/-! # The radio state machine on a clock that advances while the code runs

`Node.radioTick` reads the clock as if it stood still during one `RadioTick`.  Here every call of
`millis()` returns a value of its own.  Of the packets that a slave handles only a heartbeat makes it
read the clock twice, and of the timers that a master handles only that of the heartbeat; in the other
cases the functions of `Model/StateMachine` are used with the one reading there is. -/

namespace Firefly

/-- What `millis()` returns at the places where one `RadioTick` calls it, in program order
(src/generic/RadioStateMachine.cpp). A call that is not reached in a tick is not made; its value is
then not used. -/
structure Reads where
  /-- in `TimerExpired` (cpp:256) for `TimerHeartbeat`; `timers_[TimerNone]` is never set, so it is not
  compared with the clock -/
  first : U32
  /-- the same for `TimerChangeEffect` -/
  change : U32
  /-- the same for `TimerBroadcastEffect` -/
  broadcast : U32
  /-- in the handler of the event: `millis_offset_` (cpp:123), `effect_change_seen_at_` (cpp:137, 145) or
  `GetNetworkMillis` (cpp:40) -/
  event : U32
  /-- in the handler of the event: `SetTimer` (cpp:246) -/
  eventTimer : U32
  /-- in `beginMaster`: `GetNetworkMillis` (cpp:40) -/
  beat : U32
  /-- in `beginMaster` or `beginSlave`: `SetTimer(TimerHeartbeat, ...)` (cpp:246) -/
  beatTimer : U32
  /-- in `beginMaster`: `SetTimer(TimerBroadcastEffect, ...)` (cpp:246) -/
  broadcastTimer : U32
  /-- in `beginMaster`: the comparison (cpp:233) -/
  test : U32
  /-- in `beginMaster`: the time that is left (cpp:238) -/
  rest : U32
  /-- in `beginMaster`: `SetTimer(TimerChangeEffect, ...)` (cpp:246) -/
  changeTimer : U32

/-- The readings in program order. src/generic/RadioStateMachine.cpp:67-112. -/
def Reads.list (r : Reads) : List U32 :=
  [r.first, r.change, r.broadcast, r.event, r.eventTimer, r.beat, r.beatTimer, r.broadcastTimer, r.test,
    r.rest, r.changeTimer]

/-- All readings equal: the clock of `Model/StateMachine`, src/generic/RadioStateMachine.cpp:67. -/
def Reads.const (t : U32) : Reads := ⟨t, t, t, t, t, t, t, t, t, t, t⟩

namespace Node

/-- `RadioStateMachine::TimerExpired`, src/generic/RadioStateMachine.cpp:250-262. -/
def timerExpiredR (r : Reads) (s : Node) : TimerType :=
  if s.timers.none ≠ 0 ∧ s.timers.none < r.first then .none
  else if s.timers.heartbeat ≠ 0 ∧ s.timers.heartbeat < r.first then .heartbeat
  else if s.timers.changeEffect ≠ 0 ∧ s.timers.changeEffect < r.change then .changeEffect
  else if s.timers.broadcastEffect ≠ 0 ∧ s.timers.broadcastEffect < r.broadcast then .broadcastEffect
  else .none

/-- `RadioStateMachine::handleSlaveEvent` for a packet, src/generic/RadioStateMachine.cpp:117-148. -/
def handleSlavePacketR (plat : Platform) (r : Reads) (p : Packet) (s : Node) : Except Fault Node :=
  match p.type with
  | .heartbeat => do
    let t ← p.readTimeFromHeartbeat plat
    return { s with millisOffset := t - r.event }.armSlaveTimeout r.eventTimer
  | .claimMaster => s.handleSlavePacket plat r.eventTimer p
  | _ => s.handleSlavePacket plat r.event p

/-- `RadioStateMachine::handleMasterEvent` for a timer, src/generic/RadioStateMachine.cpp:194-220. -/
def handleMasterTimerR (plat : Platform) (r : Reads) (t : TimerType) (s : Node) : Except Fault Node :=
  match t with
  | .heartbeat => do
    let s ← s.sendHeartbeat plat r.event
    return s.setTimer r.eventTimer .heartbeat kMasterHeartbeatInterval
  | _ => s.handleMasterTimer plat r.eventTimer t

/-- The dispatch to the current state's handler, src/generic/RadioStateMachine.cpp:83-93. -/
def handleEventR (plat : Platform) (r : Reads) (pkt : Option Packet) (t : TimerType) (s : Node) :
    Except Fault Node :=
  match pkt with
  | some p =>
    match s.state with
    | .slave => s.handleSlavePacketR plat r p
    | .master => s.handleMasterPacket plat r.eventTimer p
  | none =>
    if t = .none then return s
    else
      match s.state with
      | .slave => return s.handleSlaveTimer t
      | .master => s.handleMasterTimerR plat r t

/-- `RadioStateMachine::beginMaster`, src/generic/RadioStateMachine.cpp:228-240. -/
def beginMasterR (plat : Platform) (r : Reads) (s : Node) : Except Fault Node := do
  let s ← s.sendHeartbeat plat r.beat
  let s := s.setTimer r.beatTimer .heartbeat kMasterHeartbeatInterval
  let s := s.setTimer r.broadcastTimer .broadcastEffect kBroadcastEffectInterval
  if kChangeEffectInterval < r.test - s.effectChangeSeenAt then
    return s.setTimer r.changeTimer .changeEffect 1
  else
    return s.setTimer r.changeTimer .changeEffect
      (kChangeEffectInterval - (r.rest - s.effectChangeSeenAt))

/-- The state change at the end of `RadioTick`, src/generic/RadioStateMachine.cpp:95-111. -/
def finishTickR (plat : Platform) (r : Reads) (s : Node) : Except Fault Node := do
  let s ←
    if s.next ≠ s.state then
      let s := s.setTimer r.beat .heartbeat 0
      match s.next with
      | .slave => pure (s.beginSlave r.beatTimer)
      | .master => s.beginMasterR plat r
    else pure s
  return { s with state := s.next }

/-- `RadioStateMachine::RadioTick`, src/generic/RadioStateMachine.cpp:67-112. -/
def radioTickR (plat : Platform) (r : Reads) (rx : Option Packet) (s : Node) : Except Fault Node := do
  let t := s.timerExpiredR r
  let (pkt, out, nm') ← s.nm.receive rx
  let s := { s with nm := nm', sent := s.sent ++ out }
  let s ← s.handleEventR plat r pkt t
  s.finishTickR plat r

end Node

/-- A step of a history with the readings of the clock made in it. Not from /repo: one call into
src/generic/RadioStateMachine.cpp. The time of a `RadioTick` is its first reading. -/
structure Timed where
  entry : Entry
  reads : Reads

/-- Executions of one device on such a clock, newest step first. `SetEffect` reads the clock once
(src/generic/RadioStateMachine.cpp:47-57), the other calls do not read it. -/
inductive Paced (plat : Platform) (s₀ : Node) : List Timed → Node → Prop
  | nil : Paced plat s₀ [] s₀
  | tick {h s} (r : Reads) (rx : Option Packet) {s'} : Paced plat s₀ h s →
      s.radioTickR plat r rx = .ok s' → Paced plat s₀ (⟨⟨s, .radioTick r.first rx, s'⟩, r⟩ :: h) s'
  | call {h s} (op : Op) {s'} : Paced plat s₀ h s → (∀ now rx, op ≠ .radioTick now rx) →
      op.step plat s = .ok s' → Paced plat s₀ (⟨⟨s, op, s'⟩, .const op.time⟩ :: h) s'

/-- Such executions from power-on. The constructor reads the clock once, at `t₀`
(src/generic/RadioStateMachine.cpp:10-17, 246). -/
def PacedRun (plat : Platform) (t₀ : U32) (h : List Timed) (s : Node) : Prop :=
  ∃ rand junk junk', Paced plat (Node.init t₀ rand junk junk') h s

end Firefly
