import Verif.Spec.Show
import Verif.Spec.Controller

/-! # Specification vocabulary for the way from a remote control to the LEDs -/

namespace Firefly.Spec

/-- In the iteration with input `inp` the board in state `s` receives the frame `f` and takes it for
new (C05), and receives no other instruction.  An iteration listens once or twice; here `f` comes
first, and the second time is less than a second later, with the clock not about to wrap. -/
structure Receives (s : Board.State) (inp : Board.Input) (f : List U8) : Prop where
  frame : inp.first.frame = some f
  new : ∀ p, inp.first.packet = .ok (some p) → Hears s.node (some p) p
  last : ∀ p, inp.second.packet = .ok (some p) → ¬ IsInstruction p
  clock : inp.first.now.toNat + 255000 < 2 ^ 32
  soon : inp.second.now.toNat ≤ inp.first.now.toNat + 1000

/-- What a strip makes of a colour it shall show: nothing if it is marked off, an eighth of the
colour if it is marked dim. -/
def asShown (strip : Strip) (c : CRGB) : CRGB :=
  if strip.flagEnabled .off then ⟨0, 0, 0⟩
  else if strip.flagEnabled .dim then ⟨c.r / 8, c.g / 8, c.b / 8⟩ else c

/-- `c` is the colour of the LED at position `i` of `strip` at network time `t` under effect `e` with
palette number `pal`: what the effect computes for that position (counted from the far end on a
reversed strip) given any set-effect instruction with that palette, whatever the state of the
random generator, as the strip shows it. -/
def ShowsEffect (F : FastLED) (e : Effect) (pal : U8) (strip : Strip) (i : Nat) (t : U32)
    (c : CRGB) : Prop :=
  if strip.flagEnabled .off then c = ⟨0, 0, 0⟩
  else ∃ rgb, c = asShown strip rgb ∧ ∀ p : Packet, p.type = .setEffect → p.data[2] = pal →
    ∀ rng, ∃ rng', e.getRGB F .arduino
      (BitVec.ofNat 8 (if strip.flagEnabled .reversed then strip.count.toNat - 1 - i else i))
      t strip p rng = .ok (rgb, rng')

end Firefly.Spec
