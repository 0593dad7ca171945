import Verif.Spec.Informed

/-! # Specification vocabulary for the odds in a network of any number of devices -/

namespace Firefly.Spec

/-- The random numbers of one round: the draw for the id of the packet that is heard in it, made by its
sender, and three draws of each device (no step needs more). -/
abbrev Throw (n K : Nat) := Fin K × (Fin n → Fin K × Fin K × Fin K)

/-- The random numbers that concern device `i`. -/
def Throw.for {n K : Nat} (ω : Throw n K) (i : Fin n) : Luck K := (ω.1, ω.2 i)

/-- The devices `s₀` live through the rounds that `plan` chooses, knowing all that was drawn before, with
the draws `l` (newest first).  In a round each device does something, hears a packet, or does nothing; all
devices that hear a packet in the same round hear one with the same id.  (A device that would crash stays as
it is.) -/
def crowd {n K : Nat} (plan : List (Throw n K) → Fin n → Option Slot) (tail : Rand) (s₀ : Fin n → Node) :
    List (Throw n K) → Fin n → Node
  | [], i => s₀ i
  | ω :: l, i =>
    let s := { crowd plan tail s₀ l i with rand := supply tail (ω.for i) }
    match plan l i with
    | none => s
    | some slot =>
      match (slot.anyOp (ω.for i)).step .arduino s with
      | .error _ => s
      | .ok s' => s'

/-- Is it a heartbeat that reaches the device? -/
def Slot.isBeat : Slot → Bool
  | .hear _ p => p.type = .heartbeat
  | .other _ => false

/-- How many heartbeats reached device `i`, heard or not. -/
def beatsTo {n K : Nat} (plan : List (Throw n K) → Fin n → Option Slot) (i : Fin n) : List (Throw n K) → Nat
  | [] => 0
  | _ :: l => beatsTo plan i l + if (plan l i).any Slot.isBeat then 1 else 0

/-- How many packets reached device `i`, heard or not. -/
def reachedIn {n K : Nat} (plan : List (Throw n K) → Fin n → Option Slot) (i : Fin n) : List (Throw n K) → Nat
  | [] => 0
  | _ :: l => reachedIn plan i l + ((plan l i).map Slot.beats).getD 0

/-- When the last packet reached device `i`, in its own time, or `t` if none did so far. -/
def lastReachedIn {n K : Nat} (plan : List (Throw n K) → Fin n → Option Slot) (i : Fin n) (t : Nat) :
    List (Throw n K) → Nat
  | [] => t
  | _ :: l =>
    match plan l i with
    | some (.hear now _) => now.toNat
    | _ => lastReachedIn plan i t l

/-- From `t` on (in its own time) a sign of life of a master reaches device `i` at least every 1250 ms, and it
runs in between as it likes, as in `KeptInformed`. -/
structure InformedIn {n K : Nat} (plan : List (Throw n K) → Fin n → Option Slot) (i : Fin n) (t : Nat) :
    Prop where
  sign : ∀ l now p, plan l i = some (.hear now p) → p.type = .heartbeat ∨ p.type = .claimMaster
  after : ∀ l slot, plan l i = some slot → lastReachedIn plan i t l ≤ slot.time
  soon : ∀ l slot, plan l i = some slot → slot.time ≤ lastReachedIn plan i t l + 1250
  clock : ∀ l slot, plan l i = some slot → slot.time + 255000 < 2 ^ 32
  proper : ∀ l now p, plan l i = some (.other (.setEffect now p)) → IsInstruction p

end Firefly.Spec
