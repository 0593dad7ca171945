import Verif.Spec.Stability

/-! # Specification vocabulary for networks without a master -/

namespace Firefly.Spec

/-- From `net₀` to `net`, no master is running: every device is slave in `net₀` or does not take
any step (a master that died). -/
def HwNet.Masterless {n} (net₀ net : HwNet n) : Prop :=
  ∀ j, (net₀.node j).getCurrentState = .slave ∨ since net₀ net j = []

end Firefly.Spec
