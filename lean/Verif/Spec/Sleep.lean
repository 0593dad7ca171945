import Verif.Model.Battery

/-! # When a device sleeps because of its battery: vocabulary for C76, C90 and C96 -/

namespace Firefly.Spec

/-- Of these readings of the battery (newest first) one taken after start-up was below `cutoff`, and
none of those taken after it (and after start-up) was above `resume`. -/
def StillLow (cutoff resume : Nat) (readings : List Battery.Input) : Prop :=
  ∃ newer x older, readings = newer ++ x :: older ∧ x.expired = true ∧ x.value.toNat < cutoff ∧
    ∀ y ∈ newer, y.expired = true → y.value.toNat ≤ resume

end Firefly.Spec
