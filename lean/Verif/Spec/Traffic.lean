import Verif.Spec.Instruction

/-! # Specification vocabulary for the traffic of a device -/

namespace Firefly.Spec

/-- How many packets the device transmitted in these steps. -/
def traffic (w : List Entry) : Nat := (w.map fun e => (Entry.transmitted e).length).sum

open Classical in
/-- In how many of the steps `P` is the case. -/
noncomputable def tally (P : Entry → Prop) (w : List Entry) : Nat := w.countP fun e => decide (P e)

/-- The device hears a new packet. -/
def HearsNew (e : Entry) : Prop := ∃ p, Entry.heard e = some p

/-- The device hears, as a master, a heartbeat, a set-effect or a control packet. -/
def MasterHears (e : Entry) : Prop :=
  e.pre.getCurrentState = .master ∧ ∃ p, Entry.heard e = some p ∧ (p.type = .heartbeat ∨ IsInstruction p)

/-- The program of the device requests an effect. -/
def Requested (e : Entry) : Prop := ∃ now p, e.op = .setEffect now p

end Firefly.Spec
