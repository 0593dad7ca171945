/-!
# Vocabulary for colour properties

Plain arithmetic on natural numbers, independent of the model.
-/

namespace Firefly.Spec

/-- `x` lies between `a` and `b` (in either order, ends included). -/
def Between (a b x : Nat) : Prop := min a b ≤ x ∧ x ≤ max a b

/-- Distance between two neighbouring colours of a gradient over positions 0..65535.  A
wrapping gradient has as many segments as colours, a non-wrapping one has one less. -/
def spacing (colours : Nat) (wrap : Bool) : Nat :=
  65535 / (if wrap then colours else colours - 1)

/-- Number of steps forward from hue `a` to hue `b` on a colour wheel of 255 steps (on which
hue 255 is the same as hue 0). -/
def forward (a b : Nat) : Nat := (b % 255 + 255 - a % 255) % 255

/-- `h` is met when going forward on the wheel from `a` to `b`. -/
def OnForwardArc (a b h : Nat) : Prop := ∃ k, k ≤ forward a b ∧ h % 255 = (a + k) % 255

/-- `h` lies on a shortest way round between the hues `a` and `b`. -/
def OnShorterArc (a b h : Nat) : Prop :=
  (forward a b ≤ forward b a ∧ OnForwardArc a b h) ∨
    (forward b a ≤ forward a b ∧ OnForwardArc b a h)

end Firefly.Spec
