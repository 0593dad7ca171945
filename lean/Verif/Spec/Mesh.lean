import Verif.Model.Mesh

/-! # Specification vocabulary for the mesh layer -/

namespace Firefly.Spec

/-- The five most recent entries of a newest-first list of ids; a fresh node counts as having
recorded id 0 five times. -/
def lastFive (ids : List U16) : List U16 := (ids ++ List.replicate 5 0).take 5

/-- The ids a node has put on the air, newest first. -/
def transmittedIds (h : List MeshEntry) : List U16 :=
  h.flatMap fun e => e.transmitted.map (·.id)

/-- The packets sent by node `i`, newest first. -/
def sentBy {n} (i : Fin n) (log : List (Fin n × Packet)) : List Packet :=
  (log.filter (·.1 = i)).map (·.2)

/-- The ids of a log. -/
def ids {n} (log : List (Fin n × Packet)) : List U16 := log.map (·.2.id)

/-- `i` can be reached from `j` by hops from a node to one of its neighbours. -/
inductive Connected {n} (nbrs : Fin n → List (Fin n)) (j : Fin n) : Fin n → Prop where
  | refl : Connected nbrs j j
  | hop {i k} : Connected nbrs j i → k ∈ nbrs i → Connected nbrs j k

end Firefly.Spec
