import Verif.Model.Simulator

/-! # Specification vocabulary for the simulator -/

namespace Firefly.Spec

/-- The points `(x, y)` of the frame of a place whose corner is `a` and `b` left and above of the given
location: `a = b = 0` if the location is the corner, and half the size if it is the middle. -/
def Covers (p : Simulator.Place) (a b : Nat) (x y : Nat) : Prop :=
  p.x ≤ x + a ∧ x + a < p.x + p.frameSize ∧ p.y ≤ y + b ∧ y + b < p.y + p.frameSize

end Firefly.Spec
