import Verif.Model.HwNet
import Verif.Spec.Instruction

/-! # Specification vocabulary for networks of radio devices -/

namespace Firefly.Spec

/-- `p` carries the content of `q`: the same type and, as far as `q` has one, the same payload. -/
def Carries (p q : Packet) : Prop :=
  p.type = q.type ∧ ∀ k (hk : k < 58), k < q.len.toNat → p.data[k] = q.data[k]

/-- The device with history `h` is the author of the instruction `a`: it is the one every device
starts with (effect 1, delay 0, palette 0), one passed to its `SetEffect`, or one of its own
choices. -/
def Authored (h : List Entry) (a : Packet) : Prop :=
  (a.type = .setEffect ∧ a.len = 3 ∧ a.data[0] = 1 ∧ a.data[1] = 0 ∧ a.data[2] = 0) ∨
  ∃ e ∈ h, (∃ now, e.op = .setEffect now a) ∨ FreshChoice .arduino e a

end Firefly.Spec
