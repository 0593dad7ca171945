import Verif.Model.Fakes
import Verif.Spec.Mesh

/-! # Specification vocabulary for the doubles for host programs -/

namespace Firefly.Spec

/-- `q` is `p` with the unused part of its payload cleared. -/
structure Tidied (p q : Packet) : Prop where
  id : q.id = p.id
  type : q.type = p.type
  len : q.len = p.len
  used : ∀ i (_ : i < 58), i < p.len.toNat → q.data[i] = p.data[i]
  unused : ∀ i (_ : i < 58), p.len.toNat ≤ i → q.data[i] = 0

/-- None of the calls changes what the radio is about to receive. -/
def NothingStaged (calls : List FakeRadio.Call) : Prop :=
  ∀ c ∈ calls, (∀ p, c ≠ .stage p) ∧ ∀ p, c ≠ .rewrite p

/-- None of the calls transmits. -/
def NothingSent (calls : List FakeRadio.Call) : Prop := ∀ c ∈ calls, ∀ p, c ≠ .send p

end Firefly.Spec
