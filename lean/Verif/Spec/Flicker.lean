import Mathlib.Data.List.Chain
import Verif.Model.Effects
import Verif.Spec.Effects

/-! # Specification vocabulary for how often an LED flashes (C171) -/

namespace Firefly.Spec
open Firefly

/-- Whether an LED that is given a colour is lit: one of value 0 and black are dark. -/
def Colour.isLit : Colour → Bool
  | .hsv c => c.v != 0
  | .rgb c => c != ⟨0, 0, 0⟩

/-- Whether an effect lights an LED at a time (in ms) of the network clock. -/
def lights (F : FastLED) (plat : Platform) (e : Effect) (led : U8) (strip : Strip) (pkt : Packet) (ms : Nat) :
    Bool :=
  match e.getColour F plat led (BitVec.ofNat 32 ms) strip pkt 0 with
  | .ok (c, _) => Colour.isLit c
  | .error _ => false

/-- How often an LED flashes in a sequence of frames, given by their times: how often it is dark in a frame
and lit in the next. -/
def flashes (lit : Nat → Bool) : List Nat → Nat
  | t :: t' :: ts => (if lit t = false ∧ lit t' = true then 1 else 0) + flashes lit (t' :: ts)
  | _ => 0

/-- The frames `l` are shown one after the other, the first at `a` and the last at `b`. -/
structure FramesFrom (a b : Nat) (l : List Nat) : Prop where
  first : l.head? = some a
  last : l.getLast? = some b
  order : l.IsChain (· ≤ ·)

/-- No two frames in a row are more than `g` ms apart. -/
def NoGapAbove (g : Nat) (l : List Nat) : Prop := l.IsChain fun t t' => t' ≤ t + g

/-- The sine rises in the first quarter of the circle and falls in the second (at multiples of 1/1024 of the
circle). -/
structure SteadySine (F : FastLED) : Prop where
  rises : ∀ k < 255, (F.sin16 (BitVec.ofNat 16 (64 * k))).toNat ≤ (F.sin16 (BitVec.ofNat 16 (64 * (k + 1)))).toNat
  falls : ∀ k < 511, 256 ≤ k →
    (F.sin16 (BitVec.ofNat 16 (64 * (k + 1)))).toNat ≤ (F.sin16 (BitVec.ofNat 16 (64 * k))).toNat

end Firefly.Spec
