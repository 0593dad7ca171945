import Verif.Spec.Timeline
import Verif.Spec.Traffic
import Mathlib.Algebra.BigOperators.Fin

/-! # Specification vocabulary for the network time across changes of master -/

namespace Firefly.Spec

/-- The network time of a device whose clock started at `on` is never ahead of, and at most `B` ms behind, a clock
that shows the real time plus `c`: when the local clock shows `t`, the real time is `on + t`. -/
def Behind (c : U32) (on : Nat) (s : Node) (B : Nat) : Prop :=
  ∀ t : U32, ∃ d ≤ B, BitVec.ofNat 32 on + t + c = s.getNetworkMillis t + BitVec.ofNat 32 d

/-- Every heartbeat that device `i` hears was sent at most `L` ms before by a device in range. -/
def FreshBeats {n} (nbrs : Fin n → List (Fin n)) (i : Fin n) (on : Fin n → Nat) (net₀ net : HwNet n) (L : Nat) : Prop :=
  ∀ e ∈ since net₀ net i, ∀ p, Entry.heard e = some p → p.type = .heartbeat →
    ∃ j, i ∈ nbrs j ∧ ∃ b ∈ since net₀ net j, ∃ q ∈ Entry.transmitted b, ∃ f,
      Hw.sendPacket q = .ok f ∧ Decodes f p ∧ wall on j b ≤ wall on i e ∧ wall on i e ≤ wall on j b + L

/-- How often a device took over since `net₀`. -/
noncomputable def takeovers {n} (net₀ net : HwNet n) : Nat := ∑ i, tally Entry.Promoted (since net₀ net i)

/-- The network time of device `i` was at most `A` ms behind in the beginning, or the device has heard a heartbeat as a
slave since. -/
def InTune {n} (c : U32) (on : Fin n → Nat) (A : Nat) (net₀ net : HwNet n) (i : Fin n) : Prop :=
  Behind c (on i) (net₀.node i) A ∨
    ∃ e ∈ since net₀ net i, e.pre.getCurrentState = .slave ∧ ∃ p, Entry.heard e = some p ∧ p.type = .heartbeat

end Firefly.Spec
