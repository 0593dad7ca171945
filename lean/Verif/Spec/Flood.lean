import Verif.Model.Mesh
import Verif.Spec.Mesh

/-! # Specification vocabulary for floods with random ids -/

namespace Firefly.Spec

/-- A mesh of freshly booted Arduino boards in which nothing gets lost: any node originates a packet of any
content at any time, and the medium delivers, delays, reorders and duplicates as it likes. The list are the
random numbers drawn for the ids of the originated packets, newest first. -/
inductive DrawnFlood {n : Nat} (nbrs : Fin n → List (Fin n)) : List Nat → Net n → Prop where
  | boot : DrawnFlood nbrs [] (Net.init n)
  | originate {l s} (i : Fin n) (p : Packet) (r : Rand) {p' out m' r'} :
      DrawnFlood nbrs l s →
      (s.node i).send .arduino p r = .ok (p', out, m', r') →
      DrawnFlood nbrs (r.draw.1 :: l)
        { node := fun j => if j = i then m' else s.node j
          flight := Net.broadcast nbrs i out s.flight
          sent := out.map (i, ·) ++ s.sent
          delivered := s.delivered
          originated := (i, p') :: s.originated }
  | medium {l s s' k} : DrawnFlood nbrs l s → k ≠ .originate → k ≠ .lose →
      Net.Step .arduino nbrs k s s' → DrawnFlood nbrs l s'

/-- The flood is over and yet some node connected to an originator has not delivered the packet exactly once
(or the originator got its own packet back). -/
def FellShort {n : Nat} (nbrs : Fin n → List (Fin n)) (s : Net n) : Prop :=
  s.flight = [] ∧ ∃ j i p, (j, p) ∈ s.originated ∧ Connected nbrs j i ∧
    s.delivered.count (i, p) ≠ if i = j then 0 else 1

end Firefly.Spec
