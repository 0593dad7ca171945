import Verif.Spec.Stability
import Verif.Spec.Board
import Verif.Spec.Traffic
import Mathlib.Algebra.BigOperators.Fin

/-! # Specification vocabulary for the traffic of a network -/

namespace Firefly.Spec

/-- What the devices in whose range `i` is transmitted since `net₀`. -/
def inRange {n} (nbrs : Fin n → List (Fin n)) (net₀ net : HwNet n) (i : Fin n) : List Packet :=
  (List.finRange n).flatMap fun j => if i ∈ nbrs j then (since net₀ net j).flatMap Entry.transmitted else []

/-- What device `i` heard since `net₀` was received from transmissions of devices in range, none of which was
received twice. -/
def OnceEach {n} (nbrs : Fin n → List (Fin n)) (net₀ net : HwNet n) (i : Fin n) : Prop :=
  ∃ src : List Packet, src.Subperm (inRange nbrs net₀ net i) ∧
    List.Forall₂ (fun p q => ∃ f, Hw.sendPacket q = .ok f ∧ Decodes f p)
      ((since net₀ net i).filterMap Entry.heard) src

/-- How many packets all devices together transmitted since `net₀`. -/
def channel {n} (net₀ net : HwNet n) : Nat := ∑ i, traffic (since net₀ net i)

/-- How many effects the programs of all devices together requested since `net₀`. -/
noncomputable def requests {n} (net₀ net : HwNet n) : Nat := ∑ i, tally Requested (since net₀ net i)

end Firefly.Spec
