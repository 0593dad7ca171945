import Verif.Spec.Crowd

/-! # Specification vocabulary for several masters that become one -/

namespace Firefly.Spec

/-- The packet that reaches the device in the slot, if any. -/
def Slot.packet : Slot → Option Packet
  | .hear _ p => some p
  | .other (.radioTick _ rx) => rx
  | .other _ => none

/-- How many of the devices are masters. -/
def mastersAmong {n : Nat} (s₀ : Fin n → Node) : Nat :=
  (Finset.univ.filter fun i => (s₀ i).getCurrentState = .master).card

section
variable {n K : Nat} (plan : List (Throw n K) → Fin n → Option Slot) (tail : Rand) (s₀ : Fin n → Node)

/-- Device `i` is a master after the draws `l`. -/
def MasterAt (l : List (Throw n K)) (i : Fin n) : Prop := (crowd plan tail s₀ l i).getCurrentState = .master

/-- In the next round the heartbeat of a master reaches all other masters. -/
def BeatToAll (l : List (Throw n K)) : Prop :=
  ∃ m, MasterAt plan tail s₀ l m ∧
    ∀ i, i ≠ m → MasterAt plan tail s₀ l i → ∃ now p, plan l i = some (.hear now p) ∧ p.type = .heartbeat

/-- In the next round some master is reached by no heartbeat and no claim. -/
def OneUndisturbed (l : List (Throw n K)) : Prop :=
  ∃ m, MasterAt plan tail s₀ l m ∧
    ∀ slot p, plan l m = some slot → slot.packet = some p → p.type ≠ .heartbeat ∧ p.type ≠ .claimMaster

open Classical in
/-- The number of rounds in which the heartbeat of a master reached all other masters. -/
noncomputable def beatRounds : List (Throw n K) → Nat
  | [] => 0
  | _ :: l => beatRounds l + if BeatToAll plan tail s₀ l then 1 else 0

open Classical in
/-- How many devices have been masters all the time. -/
noncomputable def lastingMasters (l : List (Throw n K)) : Nat :=
  (Finset.univ.filter fun i => ∀ l', l' <:+ l → MasterAt plan tail s₀ l' i).card

open Classical in
/-- The number of rounds in which the heartbeat of a master reached all other masters while two devices had been
masters all the time. -/
noncomputable def contested : List (Throw n K) → Nat
  | [] => 0
  | _ :: l => contested l +
      if BeatToAll plan tail s₀ l ∧ 2 ≤ lastingMasters plan tail s₀ l then 1 else 0

/-- No slave took over: who is a master in the end was a master all the time. -/
def NoTakeOver (l : List (Throw n K)) : Prop :=
  ∀ i, MasterAt plan tail s₀ l i → ∀ l', l' <:+ l → MasterAt plan tail s₀ l' i

end

end Firefly.Spec
