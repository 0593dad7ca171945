import Verif.Spec.Frame

/-! # Specification vocabulary for the wiring of strips -/

namespace Firefly.Spec

/-- Two strips of the same length that agree in the flags describing what the strip looks like: tiny,
bright, circular, mirrored, and being the panel of a controller.  They may differ in the flags
describing how it is wired: reversed, dim and off. -/
structure SameLook (s s' : Strip) : Prop where
  count : s.count = s'.count
  tiny : s.flagEnabled .tiny = s'.flagEnabled .tiny
  bright : s.flagEnabled .bright = s'.flagEnabled .bright
  circular : s.flagEnabled .circular = s'.flagEnabled .circular
  mirrored : s.flagEnabled .mirrored = s'.flagEnabled .mirrored
  controller : s.flagEnabled .controller = s'.flagEnabled .controller

/-- The LED of column `c` in row `r` of a panel with rows of `n` LEDs that is wired in one snaking
line: even rows from left to right, odd rows from right to left. -/
def snake (n r c : Nat) : Nat := n * r + if r % 2 = 0 then c else n - 1 - c

/-- LED `k` of device `d` shows colour `c` at time `t`. -/
def LedShows (fr : Frame) (d : Device) (k : Nat) (t : U32) (c : CRGB) : Prop :=
  ∃ strip i, (ledsInOrder d)[k]? = some (strip, i) ∧ Shows fr strip i t c

/-- LED `k` and LED `k'` of device `d` always show the same as each other. -/
def Twins (d : Device) (k k' : Nat) : Prop :=
  ∀ fr t c, LedShows fr d k t c ↔ LedShows fr d k' t c

end Firefly.Spec
