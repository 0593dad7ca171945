import Verif.Model.Trellis
import Verif.Spec.Controller
import Verif.Spec.Remote

/-!
# Specification vocabulary for the key pad

Sixteen keys: twelve choose what they show, the others (from left to right) go back a page, change
to choosing palettes, change to choosing effects, and go forward a page.
-/

namespace Firefly.Spec
open Firefly

/-- What a user sees the pad offer: palettes or effects, and the page of each list. -/
structure Chooser where
  mode : Trellis.Mode
  palettePage : Nat
  effectPage : Nat
  deriving DecidableEq, Repr

/-- What the state of the pad offers. -/
def offers (s : Trellis.State) : Chooser := ⟨s.mode, s.palettePage.toNat, s.effectPage.toNat⟩

/-- What the pad offers after a key event, with two pages of palettes and two of effects: only
pressing one of the four keys of the bottom row changes it. -/
def Chooser.after (c : Chooser) (e : Trellis.Event) : Chooser :=
  match e.rising, e.key.val, c.mode with
  | true, 13, _ => { c with mode := .color }
  | true, 14, _ => { c with mode := .effect }
  | true, 12, .color => { c with palettePage := prevOf 2 c.palettePage }
  | true, 12, .effect => { c with effectPage := prevOf 2 c.effectPage }
  | true, 15, .color => { c with palettePage := nextOf 2 c.palettePage }
  | true, 15, .effect => { c with effectPage := nextOf 2 c.effectPage }
  | _, _, _ => c

/-- All key events of a run (whose iterations are listed newest first), oldest first. -/
def keyEvents (h : List (Trellis.State × Trellis.Input × Trellis.State)) : List Trellis.Event :=
  (h.reverse.map (·.2.1.events)).flatten

/-- In an iteration of the pad that starts in state `s` with input `inp`, the key event `e` is
handled in state `s₁` and leads to state `s₂`. -/
def Handles (env : Trellis.Env) (s : Trellis.State) (inp : Trellis.Input) (e : Trellis.Event)
    (s₁ s₂ : Trellis.State) : Prop :=
  ∃ node pre post, s.node.tick .arduino inp.now₁ inp.rx₁ inp.now₂ inp.rx₂ = .ok node ∧
    inp.events = pre ++ e :: post ∧
    pre.foldlM (Trellis.handle env) { s with node := node } = .ok s₁ ∧
    Trellis.handle env s₁ e = .ok s₂

/-- The device follows the instruction to show the effect with number `effect` and the palette with
number `palette`. -/
def FollowsEffect (n : Node) (effect palette : U8) : Prop :=
  n.getSetEffect.type = .setEffect ∧ n.getSetEffect.data[0] = effect ∧
    n.getSetEffect.data[2] = palette

/-- The device follows the instruction to show a colour. -/
def FollowsColour (n : Node) (delay : U8) (c : CRGB) : Prop :=
  n.getSetEffect.type = .setControl ∧ n.getSetEffect.data[0] = delay ∧
    n.getSetEffect.data[1] = c.r ∧ n.getSetEffect.data[2] = c.g ∧ n.getSetEffect.data[3] = c.b

/-- The pad transmits a set-effect instruction with these three bytes, twice, and follows it. -/
def Orders (s₁ s₂ : Trellis.State) (effect delay palette : U8) : Prop :=
  ∃ q q', s₂.node.sent = s₁.node.sent ++ [q, q'] ∧ (∀ p ∈ [q, q', s₂.node.getSetEffect],
    p.type = .setEffect ∧ p.len = 3 ∧ p.data[0] = effect ∧ p.data[1] = delay ∧ p.data[2] = palette)

/-- `d` is the colour `c` at 128/255 of its brightness. -/
def AtHalf (c d : CRGB) : Prop :=
  d.r.toNat = c.r.toNat * 128 / 255 ∧ d.g.toNat = c.g.toNat * 128 / 255 ∧
    d.b.toNat = c.b.toNat * 128 / 255

/-- Whether key `k` is held after some key events. -/
def heldAfter (k : Nat) (events : List Trellis.Event) : Bool :=
  events.foldl (fun b e => if e.key.val = k then e.rising else b) false

/-- The lamps of the bottom row. -/
def keyLamp (k : Nat) (held : Bool) : CRGB :=
  if k = 12 then if held then ⟨128, 0, 0⟩ else ⟨8, 0, 0⟩
  else if k = 15 then if held then ⟨0, 128, 0⟩ else ⟨0, 8, 0⟩
  else if held then ⟨128, 128, 128⟩ else ⟨0, 0, 0⟩

end Firefly.Spec
