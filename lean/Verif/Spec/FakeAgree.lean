import Verif.Spec.FakeNetwork

/-! # Specification vocabulary for agreement in the network of the integration tests -/

namespace Firefly.Spec

/-- Two packets tell a device the same: they have the same type and the same used payload. -/
structure SameOrder (p q : Packet) : Prop where
  type : p.type = q.type
  len : p.len = q.len
  used : ∀ i (_ : i < 58), i < p.len.toNat → p.data[i] = q.data[i]

end Firefly.Spec
