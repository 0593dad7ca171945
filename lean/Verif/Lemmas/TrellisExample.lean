import Verif.Lemmas.Trellis
import Verif.Lemmas.ControllerExample

/-! # A concrete key pad for the examples -/

namespace Firefly.Trellis.Demo
open Firefly Spec Trellis

/-- A pad with FastLED's portable code and the shipped effects.  Colours are "converted" component
by component, so that they can be told apart. -/
def env : Env := ⟨Controller.Demo.env.F, Controller.Demo.env.registry⟩

theorem env_shipped : shippedRegistry .arduino ⟨1, 2, 3⟩ = .ok env.registry :=
  Controller.Demo.env_shipped

/-- Power-up at time 1000. -/
def start : State :=
  init env 1000 (fun _ => 7) (.heartbeat, Vector.replicate 58 9) (.heartbeat, Vector.replicate 58 9)
    1337

/-- A key pressed at time `t`. -/
def down (k : Fin 16) (t : U32) : Event := ⟨k, true, t, t + 1⟩
/-- A key released. -/
def up (k : Fin 16) (t : U32) : Event := ⟨k, false, t, t + 1⟩

/-- An iteration at time `t`. -/
def input (t : U32) (rx : Option Packet) (events : List Event) : Input where
  now₁ := t
  rx₁ := rx
  now₂ := t
  rx₂ := none
  events := events
  clock := fun k => t + 10 + BitVec.ofNat 32 k

/-- The instruction to show a colour. -/
def colour (id : U16) (delay r g b : U8) : Packet :=
  { (blank.writeControl delay ⟨r, g, b⟩) with id := id }

/-- Runs a list of iterations (the last one first). -/
def runList (env : Env) (s₀ : State) :
    List Input → Option (List (State × Input × State) × State)
  | [] => some ([], s₀)
  | inp :: l =>
    match runList env s₀ l with
    | none => none
    | some (h, s) =>
      match loop env inp s with
      | .ok s' => some ((s, inp, s') :: h, s')
      | .error _ => none

theorem runList_run {env : Env} {s₀ : State} {l : List Input} {h s}
    (e : runList env s₀ l = some (h, s)) : Trellis.Run env s₀ h s := by
  induction l generalizing h s with
  | nil => cases e; exact .nil
  | cons inp l ih =>
    unfold runList at e
    split at e
    · cases e
    · rename_i h' s' hr
      split at e
      · rename_i s'' hl; cases e; exact .cons _ (ih hr) hl
      · cases e

/-- A run that passes a check exists if executing it passes the check. -/
theorem run_of_check {l : List Input} (chk : List (State × Input × State) → State → Bool)
    (e : (runList env start l).any (fun x => chk x.1 x.2) = true) :
    ∃ h s, Trellis.Run env start h s ∧ chk h s = true := by
  cases hb : runList env start l with
  | none => rw [hb] at e; cases e
  | some x =>
    rw [hb] at e
    exact ⟨x.1, x.2, runList_run hb, by simpa using e⟩

/-- The state in which the key event number `i` of an iteration is handled, and the one after it. -/
def around (inp : Input) (i : Nat) (s : State) : Option (State × State) :=
  match s.node.tick .arduino inp.now₁ inp.rx₁ inp.now₂ inp.rx₂, inp.events[i]? with
  | .ok node, some e =>
    match (inp.events.take i).foldlM (handle env) { s with node := node } with
    | .ok s₁ =>
      match handle env s₁ e with
      | .ok s₂ => some (s₁, s₂)
      | .error _ => none
    | .error _ => none
  | _, _ => none

theorem around_handles {inp : Input} {i : Nat} {s s₁ s₂ : State} {e : Event}
    (h : around inp i s = some (s₁, s₂)) (he : inp.events[i]? = some e) :
    Handles env s inp e s₁ s₂ := by
  unfold around at h
  split at h
  · rename_i node e' ht he'
    rw [he] at he'
    cases he'
    split at h
    · rename_i s₁' h1
      split at h
      · rename_i s₂' h2
        cases h
        obtain ⟨hi, hg⟩ := List.getElem?_eq_some_iff.1 he
        refine ⟨node, inp.events.take i, inp.events.drop (i + 1), ht, ?_, h1, h2⟩
        rw [← hg, List.getElem_cons_drop, List.take_append_drop]
      · cases h
    · cases h
  · cases h

/-- A key event that passes a check is handled after a run if executing it passes the check. -/
theorem handles_of_check {l : List Input} {inp : Input} {i : Nat} {e : Event}
    (he : inp.events[i]? = some e) (chk : State → State → Bool)
    (c : (runList env start l).any (fun x => (around inp i x.2).any fun y => chk y.1 y.2) = true) :
    ∃ h s s₁ s₂, Trellis.Run env start h s ∧ Handles env s inp e s₁ s₂ ∧ chk s₁ s₂ = true := by
  obtain ⟨h, s, r, c⟩ := run_of_check (l := l) (fun _ s => (around inp i s).any fun y => chk y.1 y.2) c
  cases ha : around inp i s with
  | none => rw [ha] at c; cases c
  | some y =>
    rw [ha] at c
    exact ⟨h, s, y.1, y.2, r, around_handles ha he, by simpa using c⟩

instance (n : Node) (a b : U8) : Decidable (FollowsEffect n a b) :=
  inferInstanceAs (Decidable (_ ∧ _))
instance (n : Node) (a : U8) (c : CRGB) : Decidable (FollowsColour n a c) :=
  inferInstanceAs (Decidable (_ ∧ _))

end Firefly.Trellis.Demo
