import Verif.Model.NetworkManager

/-! # Radio state machine (src/generic/RadioStateMachine.{hpp,cpp}) -/

namespace Firefly

/-- `enum class RadioState`, src/generic/RadioStateMachine.hpp:34-37. -/
inductive RadioState where
  | slave
  | master
  deriving DecidableEq, Repr

/-- `enum TimerType`, src/generic/RadioStateMachine.hpp:10-15. -/
inductive TimerType where
  | none
  | heartbeat
  | changeEffect
  | broadcastEffect
  deriving DecidableEq, Repr

/-- `timers_`, src/generic/RadioStateMachine.hpp:123: one deadline per `TimerType`,
0 meaning disabled. -/
structure Timers where
  none : U32
  heartbeat : U32
  changeEffect : U32
  broadcastEffect : U32
  deriving DecidableEq, Repr

/-- `timers_[t]`. src/generic/RadioStateMachine.cpp:256. -/
def Timers.get (ts : Timers) : TimerType → U32
  | .none => ts.none
  | .heartbeat => ts.heartbeat
  | .changeEffect => ts.changeEffect
  | .broadcastEffect => ts.broadcastEffect

/-- `timers_[t] = v`. src/generic/RadioStateMachine.cpp:244-246. -/
def Timers.set (ts : Timers) (t : TimerType) (v : U32) : Timers :=
  match t with
  | .none => { ts with none := v }
  | .heartbeat => { ts with heartbeat := v }
  | .changeEffect => { ts with changeEffect := v }
  | .broadcastEffect => { ts with broadcastEffect := v }

/-- `kSlaveNoPacketTimeout`, src/generic/RadioStateMachine.hpp:75. -/
def kSlaveNoPacketTimeout : Nat := 5000
/-- `kSlaveNoPacketRandom`, src/generic/RadioStateMachine.hpp:80. -/
def kSlaveNoPacketRandom : Nat := 2000
/-- `kMasterHeartbeatInterval`, src/generic/RadioStateMachine.hpp:85. -/
def kMasterHeartbeatInterval : U32 := 1000
/-- `kChangeEffectInterval`, src/generic/RadioStateMachine.hpp:88. -/
def kChangeEffectInterval : U32 := 60000
/-- `kBroadcastEffectInterval`, src/generic/RadioStateMachine.hpp:91. -/
def kBroadcastEffectInterval : U32 := 2000

/-- One device: the members of `RadioStateMachine`
(src/generic/RadioStateMachine.hpp:115-149) together with its `NetworkManager`, the random
supply, and a log of every packet handed to the radio (oldest first; a history variable,
never read by the code).  `effectIndex` is an `int8_t`, `millisOffset` an `int32_t`. -/
structure Node where
  nm : NM
  rand : Rand
  sent : List Packet
  state : RadioState
  next : RadioState
  timers : Timers
  effectChangeSeenAt : U32
  millisOffset : U32
  effectIndex : U8
  numPalettes : U8
  numEffects : U8
  packet : Packet
  setEffectPacket : Packet
  tickRun : Bool

namespace Node

/-- `RadioStateMachine::SetTimer`, src/generic/RadioStateMachine.cpp:242-248. -/
def setTimer (now : U32) (t : TimerType) (delay : U32) (s : Node) : Node :=
  { s with timers := s.timers.set t (if delay = 0 then 0 else now + delay) }

/-- `RadioStateMachine::TimerExpired`, src/generic/RadioStateMachine.cpp:250-262: the first
timer in enum order that is enabled and strictly before `millis()`. -/
def timerExpired (now : U32) (s : Node) : TimerType :=
  if s.timers.none ≠ 0 ∧ s.timers.none < now then .none
  else if s.timers.heartbeat ≠ 0 ∧ s.timers.heartbeat < now then .heartbeat
  else if s.timers.changeEffect ≠ 0 ∧ s.timers.changeEffect < now then .changeEffect
  else if s.timers.broadcastEffect ≠ 0 ∧ s.timers.broadcastEffect < now then .broadcastEffect
  else .none

/-- `RadioStateMachine::GetCurrentState`, src/generic/RadioStateMachine.cpp:21. -/
def getCurrentState (s : Node) : RadioState := s.state

/-- `RadioStateMachine::GetNetworkMillis`, src/generic/RadioStateMachine.cpp:38-41. -/
def getNetworkMillis (now : U32) (s : Node) : U32 := now + s.millisOffset

/-- `RadioStateMachine::GetEffectIndex`, src/generic/RadioStateMachine.cpp:43
(`int8_t` to `uint8_t`: same bits). -/
def getEffectIndex (s : Node) : U8 := s.effectIndex

/-- `RadioStateMachine::GetSetEffect`, src/generic/RadioStateMachine.cpp:45.  The code returns
a pointer to the member; no caller in the repository writes through it. -/
def getSetEffect (s : Node) : Packet := s.setEffectPacket

/-- `network_manager_->send(p)`: returns the packet with its new id.
src/generic/RadioStateMachine.cpp:49, 161, 206, 212 and 267. -/
def nmSend (plat : Platform) (p : Packet) (s : Node) : Except Fault (Packet × Node) := do
  let (p', out, nm', r') ← s.nm.send plat p s.rand
  return (p', { s with nm := nm', rand := r', sent := s.sent ++ out })

/-- `RadioStateMachine::SendHeartbeat`, src/generic/RadioStateMachine.cpp:264-268. -/
def sendHeartbeat (plat : Platform) (now : U32) (s : Node) : Except Fault Node := do
  let (p, s) ← nmSend plat (s.packet.writeHeartbeat (s.getNetworkMillis now)) s
  return { s with packet := p }

/-- `kSlaveNoPacketTimeout + rand() % kSlaveNoPacketRandom` armed on the heartbeat timer;
src/generic/RadioStateMachine.cpp:126-127 and 224-225. -/
def armSlaveTimeout (now : U32) (s : Node) : Node :=
  setTimer now .heartbeat
    (BitVec.ofNat 32 (kSlaveNoPacketTimeout + s.rand.draw.1 % kSlaveNoPacketRandom))
    { s with rand := s.rand.draw.2 }

/-- `RadioStateMachine::beginSlave`, src/generic/RadioStateMachine.cpp:223-226. -/
def beginSlave (now : U32) (s : Node) : Node := s.armSlaveTimeout now

/-- `RadioStateMachine::beginMaster`, src/generic/RadioStateMachine.cpp:228-240. -/
def beginMaster (plat : Platform) (now : U32) (s : Node) : Except Fault Node := do
  let s ← s.sendHeartbeat plat now
  let s := s.setTimer now .heartbeat kMasterHeartbeatInterval
  let s := s.setTimer now .broadcastEffect kBroadcastEffectInterval
  if kChangeEffectInterval < now - s.effectChangeSeenAt then
    return s.setTimer now .changeEffect 1
  else
    return s.setTimer now .changeEffect (kChangeEffectInterval - (now - s.effectChangeSeenAt))

/-- `RadioStateMachine::RadioStateMachine`, src/generic/RadioStateMachine.cpp:10-17, together
with the in-class member initialisers (hpp:129-149).  `junk` is the indeterminate initial
content of `packet_` and of the unwritten payload bytes of `set_effect_packet_`; their ids and
lengths are initialised to 0 by `RadioPacket`. -/
def init (now : U32) (rand : Rand) (junk : PType × Vector U8 58) (junk' : PType × Vector U8 58) :
    Node :=
  let s : Node :=
    { nm := NM.init, rand := rand, sent := [], state := .slave, next := .slave
      timers := ⟨0, 0, 0, 0⟩
      effectChangeSeenAt := 0, millisOffset := 0, effectIndex := 0
      numPalettes := 1, numEffects := 1
      packet := { id := 0, type := junk.1, len := 0, data := junk.2 }
      setEffectPacket := { id := 0, type := junk'.1, len := 0, data := junk'.2 }
      tickRun := false }
  let s := s.beginSlave now
  { s with setEffectPacket := s.setEffectPacket.writeSetEffect 1 0 0 }

/-- `RadioStateMachine::handleSlaveEvent` for a packet,
src/generic/RadioStateMachine.cpp:117-148. -/
def handleSlavePacket (plat : Platform) (now : U32) (p : Packet) (s : Node) :
    Except Fault Node :=
  match p.type with
  | .heartbeat => do
    let t ← p.readTimeFromHeartbeat plat
    return { s with millisOffset := t - now }.armSlaveTimeout now
  | .claimMaster => return s.armSlaveTimeout now
  | .setEffect => do
    let newEffect ← p.readEffectIndexFromSetEffect plat
    let newPalette ← p.readPaletteIndexFromSetEffect plat
    -- `uint8_t != int8_t` compares the promoted values; `||` short-circuits
    let changed ←
      if (newEffect.toNat : Int) ≠ s.effectIndex.toInt then pure true
      else do
        let cur ← s.setEffectPacket.readPaletteIndexFromSetEffect plat
        pure (decide (newPalette ≠ cur))
    return { s with
      effectChangeSeenAt := if changed then now else s.effectChangeSeenAt
      setEffectPacket := p
      effectIndex := newEffect }
  | .setControl => return { s with effectChangeSeenAt := now, setEffectPacket := p }
  | .other _ _ => return s

/-- `RadioStateMachine::handleSlaveEvent` for a timer,
src/generic/RadioStateMachine.cpp:149-151. -/
def handleSlaveTimer (t : TimerType) (s : Node) : Node :=
  match t with
  | .heartbeat => { s with next := .master }
  | _ => s

/-- `RadioStateMachine::PerformMasterElection`, src/generic/RadioStateMachine.cpp:154-165. -/
def performMasterElection (plat : Platform) (p : Packet) (s : Node) : Except Fault Node := do
  let (ourId, r) ← randomRange plat 1 0xFFFF s.rand
  let s := { s with rand := r }
  if p.id < ourId then
    let (q, s) ← nmSend plat { s.packet with type := .claimMaster, len := 0 } s
    return { s with packet := q }
  else
    return { s with next := .slave }

/-- `RadioStateMachine::handleMasterEvent` for a packet,
src/generic/RadioStateMachine.cpp:168-193. -/
def handleMasterPacket (plat : Platform) (now : U32) (p : Packet) (s : Node) :
    Except Fault Node :=
  match p.type with
  | .heartbeat => s.performMasterElection plat p
  | .claimMaster => return { s with next := .slave }
  | .setEffect => do
    let s := { s with setEffectPacket := p }
    let e ← p.readEffectIndexFromSetEffect plat
    let s := { s with effectIndex := e }
    let d ← p.readDelayFromSetEffect plat
    return s.setTimer now .changeEffect (d.setWidth 32 * 1000)
  | .setControl => do
    let s := { s with setEffectPacket := p }
    let d ← p.readDelayFromSetControl plat
    return s.setTimer now .changeEffect (d.setWidth 32 * 1000)
  | .other _ _ => return s

/-- `RadioStateMachine::handleMasterEvent` for a timer,
src/generic/RadioStateMachine.cpp:194-220. -/
def handleMasterTimer (plat : Platform) (now : U32) (t : TimerType) (s : Node) :
    Except Fault Node :=
  match t with
  | .heartbeat => do
    let s ← s.sendHeartbeat plat now
    return s.setTimer now .heartbeat kMasterHeartbeatInterval
  | .changeEffect => do
    let (e, r) ← randomRange plat 0 (s.numEffects.setWidth 16) s.rand
    let s := { s with effectIndex := e.setWidth 8, rand := r }
    let (pal, r) ← randomRange plat 0 (s.numPalettes.setWidth 16) s.rand
    let s := { s with rand := r }
    let p := s.packet.writeSetEffect s.effectIndex 0 (pal.setWidth 8)
    let s := { s with packet := p, setEffectPacket := p }
    let (p, s) ← nmSend plat s.packet s
    let s := { s with packet := p }
    return s.setTimer now .changeEffect kChangeEffectInterval
  | .broadcastEffect => do
    let (p, s) ← nmSend plat s.setEffectPacket s
    let s := { s with setEffectPacket := p }
    return s.setTimer now .broadcastEffect kBroadcastEffectInterval
  | .none => return s

/-- The dispatch to the current state's handler, src/generic/RadioStateMachine.cpp:83-93. -/
def handleEvent (plat : Platform) (now : U32) (pkt : Option Packet) (t : TimerType) (s : Node) :
    Except Fault Node :=
  match pkt with
  | some p =>
    match s.state with
    | .slave => s.handleSlavePacket plat now p
    | .master => s.handleMasterPacket plat now p
  | none =>
    if t = .none then return s
    else
      match s.state with
      | .slave => return s.handleSlaveTimer t
      | .master => s.handleMasterTimer plat now t

/-- The state change at the end of `RadioTick`, src/generic/RadioStateMachine.cpp:95-111. -/
def finishTick (plat : Platform) (now : U32) (s : Node) : Except Fault Node := do
  let s ←
    if s.next ≠ s.state then
      let s := s.setTimer now .heartbeat 0
      match s.next with
      | .slave => pure (s.beginSlave now)
      | .master => s.beginMaster plat now
    else pure s
  return { s with state := s.next }

/-- `RadioStateMachine::RadioTick`, src/generic/RadioStateMachine.cpp:67-112.  `rx` is what
the radio's `readPacket` produces during this tick, `now` the value of `millis()`
(simplification: constant within one tick; `Model/Clocked` does without it). -/
def radioTick (plat : Platform) (now : U32) (rx : Option Packet) (s : Node) :
    Except Fault Node := do
  let t := s.timerExpired now
  let (pkt, out, nm') ← s.nm.receive rx
  let s := { s with nm := nm', sent := s.sent ++ out }
  let s ← s.handleEvent plat now pkt t
  s.finishTick plat now

/-- `RadioStateMachine::Tick`, src/generic/RadioStateMachine.cpp:23-36: one radio tick on the
first call, two on later ones.  `now₁, rx₁` and `now₂, rx₂` are the clock and radio input of
the two radio ticks. -/
def tick (plat : Platform) (now₁ : U32) (rx₁ : Option Packet) (now₂ : U32) (rx₂ : Option Packet)
    (s : Node) : Except Fault Node := do
  let s ← s.radioTick plat now₁ rx₁
  let s ← if s.tickRun then s.radioTick plat now₂ rx₂ else pure s
  return { s with tickRun := true }

/-- `RadioStateMachine::SetEffect`, src/generic/RadioStateMachine.cpp:47-57. -/
def setEffect (plat : Platform) (now : U32) (p : Packet) (s : Node) : Except Fault Node := do
  let s := { s with setEffectPacket := p }
  let (q, s) ← nmSend plat s.setEffectPacket s
  let s := { s with setEffectPacket := q }
  let e ← p.readEffectIndexFromSetEffect plat
  let s := { s with effectIndex := e }
  let d : U8 ← s.setEffectPacket.readDelayFromSetEffect plat
  if d ≠ 0 then
    let d : U8 ← s.setEffectPacket.readDelayFromSetEffect plat
    return s.setTimer now .changeEffect (d.setWidth 32 * 1000)
  else
    return s.setTimer now .changeEffect kChangeEffectInterval

/-- `RadioStateMachine::SetNumPalettes`, src/generic/RadioStateMachine.cpp:59-61. -/
def setNumPalettes (n : U8) (s : Node) : Node := { s with numPalettes := n }

/-- `RadioStateMachine::SetNumEffects`, src/generic/RadioStateMachine.cpp:63-65. -/
def setNumEffects (n : U8) (s : Node) : Node := { s with numEffects := n }

end Node

/-- The operations a device performs, each with the value of `millis()` at that moment and its
environment inputs.  `Tick` is a sequence of these: one or two `radioTick`s followed by
`endTick`, which sets `tick_run_` (src/generic/RadioStateMachine.cpp:31-35; see
`Node.tick_eq_ops` in Lemmas/History.lean). -/
inductive Op where
  | radioTick (now : U32) (rx : Option Packet)
  | setEffect (now : U32) (p : Packet)
  | setNumPalettes (now : U32) (n : U8)
  | setNumEffects (now : U32) (n : U8)
  | endTick (now : U32)

/-- Executing one operation. The calls of src/devices/node/node.cpp:145-147 and
src/devices/controller/controller.cpp:515-585. -/
def Op.step (plat : Platform) (op : Op) (s : Node) : Except Fault Node :=
  match op with
  | .radioTick now rx => s.radioTick plat now rx
  | .setEffect now p => s.setEffect plat now p
  | .setNumPalettes _ n => .ok (s.setNumPalettes n)
  | .setNumEffects _ n => .ok (s.setNumEffects n)
  | .endTick _ => .ok { s with tickRun := true }

/-- The value of `millis()` at the operation. Read e.g. at src/generic/RadioStateMachine.cpp:246.
-/
def Op.time : Op → U32
  | .radioTick now _ => now
  | .setEffect now _ => now
  | .setNumPalettes now _ => now
  | .setNumEffects now _ => now
  | .endTick now => now

/-- One step of a history: the operation and the device before and after it. Not from /repo: one
call into src/generic/RadioStateMachine.cpp. -/
structure Entry where
  pre : Node
  op : Op
  post : Node

/-- Executions of one device from state `s₀` (not from /repo: the universe of schedules the
properties quantify over).  The history is newest first.  Operations that fault end the execution,
so they do not occur in histories. The calls are those of src/generic/RadioStateMachine.hpp. -/
inductive Exec (plat : Platform) (s₀ : Node) : List Entry → Node → Prop
  | nil : Exec plat s₀ [] s₀
  | cons {h s} (op : Op) {s'} : Exec plat s₀ h s → op.step plat s = .ok s' →
      Exec plat s₀ (⟨s, op, s'⟩ :: h) s'

/-- Executions from power-on at local time `t₀`, for every random supply and every indeterminate
initial buffer content. The constructor is src/generic/RadioStateMachine.cpp:10-17. -/
def Run (plat : Platform) (t₀ : U32) (h : List Entry) (s : Node) : Prop :=
  ∃ rand junk junk', Exec plat (Node.init t₀ rand junk junk') h s

end Firefly
