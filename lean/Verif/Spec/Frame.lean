import Verif.Model.LedManager

/-!
# Specification vocabulary for devices and frames
-/

namespace Firefly.Spec
open Firefly

/-- Number of LEDs of a device: the sum over its strips. -/
def totalLeds (d : Device) : Nat := (d.strips.map (·.count.toNat)).sum

/-- The LEDs of a device in order: the strip and the position on that strip. -/
def ledsInOrder (d : Device) : List (Strip × Nat) :=
  d.strips.flatMap fun s => (List.range s.count.toNat).map (s, ·)

/-- `e` is the effect to be shown while `p` is the current instruction: for a colour instruction
the effect that shows its colour, otherwise the registered effect that its first payload byte
names.  (A build with assertions insists on a well-formed effect instruction.) -/
def CurrentEffect (plat : Platform) (r : Registry Effect) (p : Packet) (e : Effect) : Prop :=
  if p.type = .setControl then e = .control
  else (plat = .host → p.type = .setEffect ∧ p.len = 3) ∧ r.getEffect plat p.data[0] = .ok e

/-- `c` is the colour that the LED at position `i` of `strip` shall show at network time `t`:
black on a strip marked off; otherwise what the current effect computes for that position
(counted from the far end on a reversed strip), whatever the state of the random generator,
divided by eight on a strip marked dim. -/
def Shows (fr : Frame) (strip : Strip) (i : Nat) (t : U32) (c : CRGB) : Prop :=
  if strip.flagEnabled .off then c = ⟨0, 0, 0⟩
  else ∃ e rgb, CurrentEffect fr.plat fr.registry fr.packet e ∧
    (∀ rng, ∃ rng', e.getRGB fr.F fr.plat
      (BitVec.ofNat 8 (if strip.flagEnabled .reversed then strip.count.toNat - 1 - i else i))
      t strip fr.packet rng = .ok (rgb, rng')) ∧
    c = if strip.flagEnabled .dim then ⟨rgb.r / 8, rgb.g / 8, rgb.b / 8⟩ else rgb

/-- The LED array of a device of `n` LEDs in which only LED `i` is lit, in colour `c`.  The LED of
the board comes before the strips; it is lit too if the device has a single LED. -/
def onlyLit (n i : Nat) (c : CRGB) : List CRGB :=
  (List.range (n + 1)).map fun j =>
    if j = i + 1 ∨ (n = 1 ∧ j = 0) then c else ⟨0, 0, 0⟩

/-- The start-up animation of a device of `n` LEDs: one white LED runs from the first to the
last LED, the last LED goes through all hues, and the white LED runs back.  Each frame comes
with the time (ms) it stays. -/
def startupFrames (F : FastLED) (n : Nat) : List (List CRGB × Nat) :=
  (List.range n).map (fun i => (onlyLit n i ⟨128, 128, 128⟩, max (500 / n) (n / 30 + 1))) ++
  (List.range 256).map (fun h =>
    (onlyLit n (n - 1) (F.hsv2rgb ⟨BitVec.ofNat 8 h, 255, 128⟩), n / 30 + 1)) ++
  (List.range n).map (fun k =>
    (onlyLit n (n - 1 - k) ⟨128, 128, 128⟩, max (500 / n) (n / 30 + 1)))

end Firefly.Spec
