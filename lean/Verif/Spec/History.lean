import Verif.Model.StateMachine

/-! # Specification vocabulary for histories of one device

Everything here is phrased in terms of what goes in and out of a device: the clock, the packet
its mesh layer hands over, the packets it transmits, and its public state. -/

namespace Firefly.Spec

/-- The local time of a step. -/
def Entry.time (e : Entry) : U32 := e.op.time

/-- With radio input `rx`, the mesh layer of device `s` hands over nothing / the packet `p`
(`NetworkManager::receive` returns false / true; see C05 for when that happens). -/
def Quiet (s : Node) (rx : Option Packet) : Prop :=
  ∃ out m, s.nm.receive rx = .ok (none, out, m)
def Hears (s : Node) (rx : Option Packet) (p : Packet) : Prop :=
  ∃ out m, s.nm.receive rx = .ok (some p, out, m)

/-- The new packet the device received in this step: the one its `NetworkManager::receive`
returned (see C05 for when that happens). -/
def Entry.heard (e : Entry) : Option Packet :=
  match e.op with
  | .radioTick _ rx =>
    match e.pre.nm.receive rx with
    | .ok (p, _, _) => p
    | .error _ => none
  | _ => none

/-- The packets handed to the radio in this step, in order. -/
def Entry.transmitted (e : Entry) : List Packet := e.post.sent.drop e.pre.sent.length

/-- The step is a radio tick. -/
def Entry.IsTick (e : Entry) : Prop := ∃ now rx, e.op = .radioTick now rx

/-- The device became master / slave in this step. -/
def Entry.Promoted (e : Entry) : Prop :=
  e.pre.getCurrentState = .slave ∧ e.post.getCurrentState = .master
def Entry.Demoted (e : Entry) : Prop :=
  e.pre.getCurrentState = .master ∧ e.post.getCurrentState = .slave

/-- A sign of life of a master: a heartbeat or claim was heard. -/
def Entry.HeardMaster (e : Entry) : Prop :=
  ∃ p, Entry.heard e = some p ∧ (p.type = .heartbeat ∨ p.type = .claimMaster)

/-- The moments from which a slave counts the silence: power-on, a demotion, or hearing a
heartbeat or claim. -/
def Sign (t₀ : U32) (h : List Entry) (t : U32) : Prop :=
  t = t₀ ∨ ∃ e ∈ h, Entry.time e = t ∧ (Entry.HeardMaster e ∨ Entry.Demoted e)

/-- A packet carrying an instruction what to display. -/
def IsInstruction (p : Packet) : Prop := p.type = .setEffect ∨ p.type = .setControl

instance (p : Packet) : Decidable (IsInstruction p) :=
  inferInstanceAs (Decidable (_ ∨ _))

/-- The device sent a heartbeat of its own (not a relay) in this step. -/
def Entry.OwnHeartbeat (e : Entry) : Prop :=
  Entry.IsTick e ∧ Entry.heard e = none ∧ ∃ p ∈ Entry.transmitted e, p.type = .heartbeat

/-- The clock: local times never go back (`h` newest first, power-on at `t₀`) and stay clear
of the 32-bit wrap-around (49.7 days) by more than the longest delay, 255 s. -/
def Clock (t₀ : U32) (h : List Entry) : Prop :=
  (h.map Entry.time ++ [t₀]).Pairwise (· ≥ ·) ∧
  ∀ t ∈ h.map Entry.time ++ [t₀], t.toNat + 255000 < 2 ^ 32

/-- `SetEffect` was only called with set-effect or control packets. -/
def ProperUse (h : List Entry) : Prop :=
  ∀ e ∈ h, ∀ now p, e.op = .setEffect now p → IsInstruction p

/-- Two packets carry the same content (everything but the id). -/
def SameContent (p q : Packet) : Prop := p.type = q.type ∧ p.len = q.len ∧ p.data = q.data

end Firefly.Spec
