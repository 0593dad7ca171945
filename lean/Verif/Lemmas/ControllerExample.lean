import Verif.Lemmas.Controller

/-! # A concrete controller for the examples -/

namespace Firefly.Controller.Demo
open Firefly Spec Controller

/-- The controller on its board, with FastLED's portable code and the shipped effects.  Colours
are "converted" component by component, so that they can be told apart. -/
def env : Env where
  F := { FastLED.reference with hsv2rgb := fun c => ⟨c.h, c.s, c.v⟩ }
  plat := .arduino
  registry := (shippedRegistry .arduino ⟨1, 2, 3⟩).toOption.getD .empty

theorem env_shipped : shippedRegistry env.plat ⟨1, 2, 3⟩ = .ok env.registry := by
  obtain ⟨r, e, _⟩ := registered_of_small .arduino (shippedEffects ⟨1, 2, 3⟩)
    (by rw [show (allSlots (shippedEffects ⟨1, 2, 3⟩)).length = 35 from rfl]; decide)
  have e : shippedRegistry .arduino ⟨1, 2, 3⟩ = .ok r := e
  show _ = Except.ok ((shippedRegistry .arduino ⟨1, 2, 3⟩).toOption.getD .empty)
  rw [show env.plat = .arduino from rfl, e]
  rfl

/-- Power-up at time 1000. -/
def start : State := init env 1000 (fun _ => 7) 1337 ⟨0, 40, 0⟩

def none3 : Trio := ⟨false, false, false⟩
def first3 : Trio := ⟨true, false, false⟩
def second3 : Trio := ⟨false, true, false⟩
def third3 : Trio := ⟨false, false, true⟩

/-- An iteration at time `t` with a good battery, nothing received, nothing pressed, and the mode
switch at `switch`. -/
def quiet (t : U32) (switch : U16) : Input where
  battery := ⟨true, 1000⟩
  now₁ := t
  rx₁ := none
  now₂ := t
  rx₂ := none
  left := none3
  right := none3
  bottom := none3
  modeSwitch := switch
  now := t
  clock := fun k => t + BitVec.ofNat 32 k
  broadcasting := false

/-- Runs a list of iterations (the last one first). -/
def runList (env : Env) (s₀ : State) :
    List Input → Option (List (State × Input × State) × State)
  | [] => some ([], s₀)
  | inp :: l =>
    match runList env s₀ l with
    | none => none
    | some (h, s) =>
      match loop env inp s with
      | .ok s' => some ((s, inp, s') :: h, s')
      | .error _ => none

theorem runList_run {env : Env} {s₀ : State} {l : List Input} {h s}
    (e : runList env s₀ l = some (h, s)) : Controller.Run env s₀ h s := by
  induction l generalizing h s with
  | nil => cases e; exact .nil
  | cons inp l ih =>
    unfold runList at e
    split at e
    · cases e
    · rename_i h' s' hr
      split at e
      · rename_i s'' hl; cases e; exact .cons _ (ih hr) hl
      · cases e

/-- A run that passes a check exists if executing it passes the check. -/
theorem run_of_check {l : List Input} (chk : List (State × Input × State) → State → Bool)
    (e : (runList env start l).any (fun x => chk x.1 x.2) = true) :
    ∃ h s, Controller.Run env start h s ∧ chk h s = true := by
  cases hb : runList env start l with
  | none => rw [hb] at e; cases e
  | some x =>
    rw [hb] at e
    exact ⟨x.1, x.2, runList_run hb, by simpa using e⟩

instance (s : State) (inp : Input) : Decidable (Awake s inp) := inferInstanceAs (Decidable (_ = _))
instance (inp : Input) : Decidable (ColourMode inp) := inferInstanceAs (Decidable (_ < _))
instance (inp : Input) : Decidable (PaletteMode inp) := inferInstanceAs (Decidable (_ ∧ _))
instance (inp : Input) : Decidable (EffectMode inp) := inferInstanceAs (Decidable (_ ≤ _))
instance (inp : Input) : Decidable (BroadcastPressed inp) := inferInstanceAs (Decidable (_ ∧ _))

end Firefly.Controller.Demo
