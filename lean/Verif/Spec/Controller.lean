import Verif.Model.Controller
import Verif.Spec.Registry

/-!
# Specification vocabulary for the hand-held controller

The panel has three rows of twelve LEDs, three status LEDs, three buttons with lamps on the left,
three on the right and three at the bottom.
-/

namespace Firefly.Spec
open Firefly Controller

/-- The iteration runs the radio and the panel (it is not suspended for low battery: C76). -/
def Awake (s : State) (inp : Input) : Prop :=
  (Battery.step .controller s.low inp.battery).active = true

/-- The mode switch stands at colour mode. -/
def ColourMode (inp : Input) : Prop := inp.modeSwitch.toNat < 173
/-- The mode switch stands at palette mode. -/
def PaletteMode (inp : Input) : Prop := 173 ≤ inp.modeSwitch.toNat ∧ inp.modeSwitch.toNat < 512
/-- The mode switch stands at effect mode. -/
def EffectMode (inp : Input) : Prop := 512 ≤ inp.modeSwitch.toNat

/-! ## Selection -/

/-- Cyclic successor among `n` choices. -/
def nextOf (n i : Nat) : Nat := if i + 1 = n then 0 else i + 1
/-- Cyclic predecessor among `n` choices. -/
def prevOf (n i : Nat) : Nat := if i = 0 then n - 1 else i - 1

/-- The selection (effect, palette) after the buttons of effect mode: top left / right steps the
effect, middle left / right the palette; of several buttons pressed at once the first counts. -/
def selectionAfter (effects palettes : Nat) (inp : Input) (sel : Nat × Nat) : Nat × Nat :=
  if inp.left.b0 then (prevOf effects sel.1, sel.2)
  else if inp.right.b0 then (nextOf effects sel.1, sel.2)
  else if inp.left.b1 then (sel.1, prevOf palettes sel.2)
  else if inp.right.b1 then (sel.1, nextOf palettes sel.2)
  else sel

/-- The broadcast button is pressed, and none of the four selection buttons. -/
def BroadcastPressed (inp : Input) : Prop :=
  inp.bottom.b0 = true ∧ inp.left.b0 = false ∧ inp.right.b0 = false ∧ inp.left.b1 = false ∧
    inp.right.b1 = false

/-- In this iteration the buttons make the controller transmit `q`, after whatever its radio tick
transmits. -/
def Transmits (env : Env) (s : State) (inp : Input) (s' : State) (q : Packet) : Prop :=
  ∃ node, s.node.tick env.plat inp.now₁ inp.rx₁ inp.now₂ inp.rx₂ = .ok node ∧
    s'.node.sent = node.sent ++ [q]

/-- In this iteration the controller does nothing on the air but its radio tick. -/
def OnlyTicks (env : Env) (s : State) (inp : Input) (s' : State) : Prop :=
  s.node.tick env.plat inp.now₁ inp.rx₁ inp.now₂ inp.rx₂ = .ok s'.node

/-! ## Buttons -/

/-- The two sides of the panel. -/
inductive Side where
  | left
  | right
  deriving DecidableEq

/-- The button of a side next to row `r` was just pressed. -/
def Side.pressed (inp : Input) (side : Side) (r : Nat) : Bool :=
  let t := match side with
    | .left => inp.left
    | .right => inp.right
  match r with
  | 0 => t.b0
  | 1 => t.b1
  | 2 => t.b2
  | _ => false

/-- The button of a side next to row `r` is the first one pressed, in the order left side top
to bottom, right side top to bottom. -/
def FirstPressed (inp : Input) (side : Side) (r : Nat) : Prop :=
  side.pressed inp r = true ∧ (∀ r' < r, side.pressed inp r' = false) ∧
    (side = .right → ∀ r', Side.left.pressed inp r' = false)

/-- No side button was just pressed. -/
def NonePressed (inp : Input) : Prop := ∀ side r, Side.pressed inp side r = false

/-- The number of a side button: 0, 2, 4 on the left and 1, 3, 5 on the right, top to bottom. -/
def Side.number (side : Side) (r : Nat) : Nat :=
  match side with
  | .left => 2 * r
  | .right => 2 * r + 1

/-! ## LEDs -/

/-- The LED at row `r`, column `c` of the panel: the strip runs through the top row from left to
right (with the three status LEDs after the seventh), back through the middle row, and through
the bottom row from left to right. -/
def panel (r c : Nat) : Nat :=
  match r with
  | 0 => if c < 7 then c else c + 3
  | 1 => 26 - c
  | _ => 27 + c

/-- Column `c` is one of the five columns next to the buttons of the side. -/
def Side.Beside (side : Side) (c : Nat) : Prop :=
  match side with
  | .left => c < 5
  | .right => 7 ≤ c ∧ c < 12

/-- The lamp in the `k`-th button of a side: each group of three lamps is one RGB LED. -/
def Side.lamp (side : Side) (k : Nat) (leds : Leds) : U8 :=
  match side, k with
  | .left, 0 => leds[41].g
  | .left, 1 => leds[41].r
  | .left, _ => leds[41].b
  | .right, 0 => leds[39].b
  | .right, 1 => leds[39].r
  | .right, _ => leds[39].g

/-- What the lamp of a side button should show: bright if it is the first one pressed on its
side, else dimmed. -/
def expectedLamp (inp : Input) (side : Side) (k : Nat) : U8 :=
  if side.pressed inp k = true ∧ ∀ k' < k, side.pressed inp k' = false then 255 else 64

/-- The lamp in the `k`-th bottom button. -/
def bottomLamp (k : Nat) (leds : Leds) : U8 :=
  match k with
  | 0 => leds[40].r
  | 1 => leds[40].g
  | _ => leds[40].b

/-- The LEDs after a shut-down for low battery: all dark but a dim red left status LED. -/
def ShutDownLeds (leds : Leds) : Prop :=
  ∀ j (h : j < 42), leds[j] = if j = 7 then ⟨8, 0, 0⟩ else ⟨0, 0, 0⟩

end Firefly.Spec
