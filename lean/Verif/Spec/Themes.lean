import Verif.Spec.Color
import Verif.Spec.Effects

/-! # Specification vocabulary for the colours of the palettes -/

namespace Firefly.Spec

/-- The colours a palette stands for: the hues met when going forward on the colour wheel (see
`OnForwardArc`) from one hue to another, and the saturations from one to another. -/
structure Theme where
  name : String
  hues : Nat × Nat
  saturations : Nat × Nat

/-- FastLED's names of hues. -/
def red : Nat := 0
def orange : Nat := 32
def yellow : Nat := 64
def green : Nat := 96
def aqua : Nat := 128
def blue : Nat := 160
def purple : Nat := 192
def pink : Nat := 224

/-- All hues of the wheel. -/
def allHues : Nat × Nat := (0, 254)
/-- Full saturation only. -/
def saturated : Nat × Nat := (255, 255)
/-- From white to fully saturated. -/
def toWhite : Nat × Nat := (0, 255)

/-- The 22 palettes in the order of their numbers. -/
def themes : List Theme := [
  ⟨"red", (red, red), saturated⟩,
  ⟨"orange", (orange, orange), saturated⟩,
  ⟨"yellow", (yellow, yellow), saturated⟩,
  ⟨"green", (green, green), saturated⟩,
  ⟨"aqua", (aqua, aqua), saturated⟩,
  ⟨"blue", (blue, blue), saturated⟩,
  ⟨"purple", (purple, purple), saturated⟩,
  ⟨"pink", (pink, pink), saturated⟩,
  ⟨"rainbow", allHues, saturated⟩,
  ⟨"warm: purple by pink to red", (purple, red), saturated⟩,
  ⟨"cool: green by aqua to blue", (green, blue), saturated⟩,
  ⟨"yellow by green to aqua", (yellow, aqua), saturated⟩,
  ⟨"80s Miami: purple by pink and red to orange", (purple, orange), saturated⟩,
  ⟨"vaporwave", allHues, (188, 251)⟩,
  ⟨"cool: white to blue", (aqua, blue), toWhite⟩,
  ⟨"candy cane: red and white", (red, red), toWhite⟩,
  ⟨"winter mint candy cane: aqua and white", (aqua, aqua), toWhite⟩,
  ⟨"fire: red by orange to yellow", (red, yellow), saturated⟩,
  ⟨"pastel rainbow", allHues, (127, 127)⟩,
  ⟨"jazz cup: teal, purple and white", (132, red), toWhite⟩,
  ⟨"yellow and double purple: purple by red to yellow", (purple, yellow), saturated⟩,
  ⟨"double rainbow", allHues, saturated⟩]

/-- A colour fits a theme, whatever its brightness. -/
def Theme.Fits (th : Theme) (c : CHSV) : Prop :=
  OnForwardArc th.hues.1 th.hues.2 c.h.toNat ∧
    th.saturations.1 ≤ c.s.toNat ∧ c.s.toNat ≤ th.saturations.2

/-- The effects that show colours of the palette.  (The others have colours of their own, except the
swinging lights, which add up colours of the palette.) -/
def ShowsPalette : Effect → Prop
  | .colorCycle | .contrastBumps | .displayColorPalette | .firefly _ | .lightning | .rainbowBumps
  | .rainbow | .rorschach _ | .simpleBlink _ | .spark => True
  | _ => False

end Firefly.Spec
