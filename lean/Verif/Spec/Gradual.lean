import Verif.Spec.Color

/-! # Specification vocabulary for gradual changes of colour -/

namespace Firefly.Spec

/-- How far two numbers are apart. -/
def apart (a b : Nat) : Nat := (a - b) + (b - a)

/-- How far two hues are apart on the colour wheel of 255 steps. -/
def huesApart (a b : Nat) : Nat := min (forward a b) (forward b a)

end Firefly.Spec
