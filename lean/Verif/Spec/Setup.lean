import Verif.Model.Setup

/-! # Specification: switching on a board (C169) -/

namespace Firefly.Spec

/-- A button is held while the fancy node starts. -/
def Held (program : Board.Program) (inp : Setup.Input) : Prop :=
  program = .fancyNode ∧ inp.pressed = true ∧ inp.stillPressed = true

instance (program : Board.Program) (inp : Setup.Input) : Decidable (Held program inp) := by
  unfold Held; infer_instance

/-- How long (ms) frames are shown in all. -/
def shownFor (frames : List (List CRGB × Nat)) : Nat := (frames.map (·.2)).sum

/-- The board has been switched on at the time `t₀`, its `setup` has shown `frames` and `loop` has
been called `inp` for the first time: the frames take at least their time. -/
def FirstLoop (t₀ : U32) (frames : List (List CRGB × Nat)) (inp : Board.Input) : Prop :=
  t₀.toNat + shownFor frames ≤ inp.first.now.toNat

end Firefly.Spec
