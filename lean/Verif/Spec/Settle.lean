import Verif.Spec.Winnow

/-! # Specification vocabulary for a network that settles on one master -/

namespace Firefly.Spec

section
variable {n K : Nat} (plan : List (Throw n K) → Fin n → Option Slot) (tail : Rand) (s₀ : Fin n → Node)

open Classical in
/-- When device `i` last knew of a master, in its own time: a packet reached it, heard or not, or it was a master
itself; `t` if neither was the case so far. -/
noncomputable def lastNewsIn (i : Fin n) (t : Nat) : List (Throw n K) → Nat
  | [] => t
  | _ :: l =>
    match plan l i with
    | some slot =>
      if slot.beats = 1 ∨ MasterAt plan tail s₀ l i then slot.time else lastNewsIn i t l
    | none => lastNewsIn i t l

/-- Whenever device `i` is a slave signs of life of a master reach it, never more than 1250 ms apart: whatever it
does next happens within 1250 ms of the last one, or of the time at which it yielded.  It runs in between as it
likes. -/
structure InformedAsSlave (i : Fin n) (t : Nat) : Prop where
  sign : ∀ l now p, plan l i = some (.hear now p) → p.type = .heartbeat ∨ p.type = .claimMaster
  after : ∀ l slot, plan l i = some slot → ¬ MasterAt plan tail s₀ l i →
    lastNewsIn plan tail s₀ i t l ≤ slot.time
  soon : ∀ l slot, plan l i = some slot → ¬ MasterAt plan tail s₀ l i →
    slot.time ≤ lastNewsIn plan tail s₀ i t l + 1250
  clock : ∀ l slot, plan l i = some slot → slot.time + 255000 < 2 ^ 32
  proper : ∀ l now p, plan l i = some (.other (.setEffect now p)) → IsInstruction p

/-- Device `i` took over: it is a master and has been a slave before. -/
def TookOver (l : List (Throw n K)) (i : Fin n) : Prop :=
  MasterAt plan tail s₀ l i ∧ ∃ l', l' <:+ l ∧ ¬ MasterAt plan tail s₀ l' i

end

end Firefly.Spec
