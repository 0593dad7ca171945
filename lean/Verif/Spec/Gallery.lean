import Verif.Spec.Themes
import Verif.Model.Device

/-! # Specification vocabulary: the colours of the palettes and the shipped devices, as tables -/

namespace Firefly.Spec

/-- A colour as hue, saturation and value. -/
abbrev Hsv := Nat × Nat × Nat

/-- The pure colour of a hue. -/
def full (hue : Nat) : Hsv := (hue, 255, 255)

/-- White (FastLED ignores the hue of a colour without saturation, but keeps it). -/
def whiteOf (hue : Nat) : Hsv := (hue, 0, 255)

/-- The colours of the 22 palettes, in the order in which they are passed through. -/
def paletteColours : List (List Hsv) := [
  [full red], [full orange], [full yellow], [full green],
  [full aqua], [full blue], [full purple], [full pink],
  [full red, full green, full blue],
  [full red, full purple],
  [full green, full blue],
  [full yellow, full aqua],
  [full purple, full orange],
  [(33, 241, 249), (247, 188, 255), (201, 225, 160), (153, 251, 150)],
  [whiteOf aqua, full blue],
  [full red, whiteOf red],
  [full aqua, whiteOf aqua],
  [full red, full orange, full yellow],
  [(red, 127, 192), (green, 127, 192), (blue, 127, 192)],
  [full 132, full purple, (red, 0, 200)],
  [full purple, full yellow, full purple],
  [full red, full green, full blue, full red, full green, full blue]]

/-- A strip: the number of LEDs and the flags that are set. -/
abbrev StripEntry := Nat × List StripFlag

/-- The shipped devices, each with its strips in the order of their wiring; the flags in the order of
their declaration. -/
def shipped : List (String × List StripEntry) := [
  ("bike", [(30, [.bright])]),
  ("ben_s_bike", [(28, [.bright])]),
  ("will_bike", [(63, [.bright])]),
  ("scarf", [(46, [])]),
  ("lantern", [(5, [.tiny])]),
  ("puck", [(12, [.tiny, .circular])]),
  ("two_side_puck", [(24, [.tiny, .circular, .mirrored])]),
  ("rainbow_cloak", [(11, [.tiny, .circular]), (94, []), (11, [.tiny, .circular, .reversed])]),
  ("backpack_tail", [(11, [])]),
  ("dan_jacket", [(60, [])]),
  ("will_jacket", [(56, [])]),
  ("will_bike_front", [(27, [.circular])]),
  ("will_top_hat", [(50, [.circular])]),
  ("bike_front", [(18, [.circular])]),
  ("hex_light", [(12, [.tiny, .circular])]),
  ("half_matrix_panel", [(16, []), (16, [.reversed]), (16, []), (16, [.reversed]),
    (16, []), (16, [.reversed]), (16, []), (16, [.reversed])]),
  ("backpack_rope", [(96, [.dim]), (96, [.dim, .reversed])]),
  ("ufo", [(12, [.circular]), (16, [.circular]), (12, [.bright, .circular]), (52, [.dim, .circular])]),
  ("brooke_bike", [(15, [.circular]), (19, []), (16, [.circular]), (33, [.bright])]),
  ("ross_backpack", [(13, [.reversed]), (12, []), (13, [.reversed]), (12, [])]),
  ("whatever", [(18, [.circular])])]

end Firefly.Spec
