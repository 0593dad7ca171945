import Verif.Model.StateMachine
import Verif.Spec.History
import Mathlib.Data.Fintype.BigOperators

/-! # Specification vocabulary for the odds of an election

The random numbers of the devices are drawn uniformly and independently.  A claim about odds is a claim
about the number of outcomes. -/

namespace Firefly.Spec

/-- The draws are equally likely numbers below `K`. `random(2, 0xFFFF)`, the id of a packet, is
`2 + draw % 65533`, and `random(1, 0xFFFF)`, the number of an election, is `1 + draw % 65534`
(`randomRange .arduino`); both are uniform when 65533 and 65534 divide `K`. -/
structure EvenDraws (K : Nat) : Prop where
  pos : 0 < K
  ids : 65533 ∣ K
  elections : 65534 ∣ K

/-- The random numbers of one step: the draw for the id of the packet that is heard in it, made by its
sender, and three draws of the device itself (no step needs more). -/
abbrev Luck (K : Nat) := Fin K × Fin K × Fin K × Fin K

/-- What happens to a device in one step: a packet reaches it that got its id at random, or anything
else. -/
inductive Slot where
  | hear (now : U32) (content : Packet)
  | other (op : Op)

/-- The draws of the device; `tail` are further numbers, never used. -/
def supply {K : Nat} (tail : Rand) (ω : Luck K) : Rand
  | 0 => ω.2.1
  | 1 => ω.2.2.1
  | 2 => ω.2.2.2
  | k + 3 => tail k

/-- The call that the slot stands for. -/
def Slot.op {K : Nat} (ω : Luck K) : Slot → Op
  | .hear now p =>
    .radioTick now (some { p with type := .heartbeat, id := BitVec.ofNat 16 (2 + ω.1.val % 65533) })
  | .other op => op

/-- Heartbeats of other masters in the slot. -/
def Slot.beats : Slot → Nat
  | .hear _ _ => 1
  | .other _ => 0

/-- The device `s₀` lives through the steps that `plan` chooses, knowing all that was drawn before, with
the draws `l` (newest first). If it is a master all the time, and hears each heartbeat that `plan`
chooses, the result is the number of heartbeats and the device at the end. -/
def staysMaster {K : Nat} (plan : List (Luck K) → Slot) (tail : Rand) (s₀ : Node) :
    List (Luck K) → Option (Nat × Node)
  | [] => if s₀.getCurrentState = .master then some (0, s₀) else none
  | ω :: l =>
    match staysMaster plan tail s₀ l with
    | none => none
    | some (k, s) =>
      let slot := plan l
      let s := { s with rand := supply tail ω }
      match (slot.op ω).step .arduino s with
      | .error _ => none
      | .ok s' =>
        if s'.getCurrentState = .master ∧
            (slot.beats = 1 → (Entry.heard ⟨s, slot.op ω, s'⟩).isSome) then
          some (k + slot.beats, s')
        else none

/-! ### Packets taken for old ones -/

/-- The call that a slot stands for when any packet may be heard in it: the packet has the content that
the slot says, and an id drawn by its sender. -/
def Slot.anyOp {K : Nat} (ω : Luck K) : Slot → Op
  | .hear now p => .radioTick now (some { p with id := BitVec.ofNat 16 (2 + ω.1.val % 65533) })
  | .other op => op

/-- The device `s₀` lives through the steps that `plan` chooses, as in `staysMaster`. The number of
packets that reach it and are not heard (or make it crash), and the device at the end. -/
def missed {K : Nat} (plan : List (Luck K) → Slot) (tail : Rand) (s₀ : Node) : List (Luck K) → Nat × Node
  | [] => (0, s₀)
  | ω :: l =>
    let slot := plan l
    let s := { (missed plan tail s₀ l).2 with rand := supply tail ω }
    match (slot.anyOp ω).step .arduino s with
    | .error _ => ((missed plan tail s₀ l).1 + slot.beats, s)
    | .ok s' =>
      ((missed plan tail s₀ l).1 +
        if slot.beats = 1 ∧ Entry.heard ⟨s, slot.anyOp ω, s'⟩ = none then 1 else 0, s')

/-! ### Time-outs -/

/-- A device `s` that was switched on at `on` and hears something at `time`, in ms of a common clock. -/
structure Listener where
  s : Node
  on : Nat
  time : Nat
  rx : Option Packet

/-- The device is a slave, and hears a heartbeat or a claim (its clock is clear of the wrap-around). -/
structure Listener.Proper (d : Listener) : Prop where
  run : ∃ t₀ h, Run .arduino t₀ h d.s
  slave : d.s.getCurrentState = .slave
  hears : ∃ p, Hears d.s d.rx p ∧ (p.type = .heartbeat ∨ p.type = .claimMaster)
  on_le : d.on ≤ d.time
  clock : d.time - d.on + 7001 < 2 ^ 32

/-- With these random numbers the device is `s'` after it heard that. -/
def Listener.After {K : Nat} (d : Listener) (tail : Rand) (ω : Luck K) (s' : Node) : Prop :=
  { d.s with rand := supply tail ω }.radioTick .arduino (BitVec.ofNat 32 (d.time - d.on)) d.rx = .ok s'

/-- If `s'` hears nothing more it turns master when it runs after `x`, and not before. -/
def Listener.TakesOverAfter (d : Listener) (s' : Node) (x : Nat) : Prop :=
  ∀ y, d.time ≤ y → y - d.on < 2 ^ 32 → ∀ rx s'', Quiet s' rx →
    s'.radioTick .arduino (BitVec.ofNat 32 (y - d.on)) rx = .ok s'' →
      (s''.getCurrentState = .master ↔ x < y) ∧ (y ≤ x → s'' = s')

end Firefly.Spec
