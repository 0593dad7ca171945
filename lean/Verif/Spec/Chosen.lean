import Verif.Spec.Timeline

/-! # Specification vocabulary for choices that people enter -/

namespace Firefly.Spec

/-- Somebody enters a choice in this step. -/
def Entered (e : Entry) : Prop := ∃ now p, e.op = .setEffect now p

/-- How long a choice is held that was entered on the master, in ms: its second byte is in seconds, and
0 stands for a minute. -/
def heldFor (p : Packet) : Nat := if p.data[1] = 0 then 60000 else 1000 * p.data[1].toNat

/-- The last choice of all is `p`, entered on `m` in the step `e`: on `m` there is no later one, and on
the other devices there is none later than `L` ms before. -/
structure LastOnMaster {n} (m : Fin n) (on : Fin n → Nat) (net₀ net : HwNet n) (L : Nat) (e : Entry)
    (p : Packet) : Prop where
  entered : ∃ now, e.op = .setEffect now p
  last : ∃ h₁ h₂, since net₀ net m = h₁ ++ e :: h₂ ∧ ∀ a ∈ h₁, ¬ Entered a
  others : ∀ i, i ≠ m → ∀ a ∈ since net₀ net i, Entered a → wall on i a + L < wall on m e

/-- The last instruction that `m` was given is `p`, which it heard by radio in the step `e`, and
nowhere was a choice entered after that. -/
structure LastByRadio {n} (m : Fin n) (on : Fin n → Nat) (net₀ net : HwNet n) (e : Entry)
    (p : Packet) : Prop where
  heard : Entry.heard e = some p
  instruction : IsInstruction p
  last : ∃ h₁ h₂, since net₀ net m = h₁ ++ e :: h₂ ∧ ∀ a ∈ h₁, Untold a
  nothing : ∀ i, ∀ a ∈ since net₀ net i, Entered a → wall on i a ≤ wall on m e

end Firefly.Spec
