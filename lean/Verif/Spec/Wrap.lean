import Verif.Spec.Instruction

/-! # Specification vocabulary for the wrap-around of the clock

The clock of a device is a 32-bit count of milliseconds: after 49.7 days it starts again at 0. -/

namespace Firefly.Spec

/-- The step happens when fewer than `d` ms are left until the clock of the device wraps around. -/
def Entry.LeftBelow (d : Nat) (e : Entry) : Prop := 2 ^ 32 < (Entry.time e).toNat + d

/-- The step is a radio tick in which a master hears nothing. -/
structure QuietReign (e : Entry) : Prop where
  tick : Entry.IsTick e
  silent : Entry.heard e = none
  master : e.pre.getCurrentState = .master

end Firefly.Spec
