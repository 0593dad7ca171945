import Verif.Model.LightNet
import Verif.Spec.Stability
import Verif.Spec.Board
import Verif.Spec.Effects
import Verif.Spec.Frame

/-! # Specification vocabulary for an installation of LED boards -/

namespace Firefly.Spec

/-- What can happen to an installation from `x₀` on: any number of steps. -/
inductive LightNet.Steps {n} (dev : Fin n → Option Board.Env) (nbrs : Fin n → List (Fin n))
    (x₀ : LightNet n) : LightNet n → Prop
  | refl : LightNet.Steps dev nbrs x₀ x₀
  | step {x x'} : LightNet.Steps dev nbrs x₀ x → LightNet.Step dev nbrs x x' →
      LightNet.Steps dev nbrs x₀ x'

/-- The installation `x` after everything on the air has faded. -/
def LightNet.faded {n} (x : LightNet n) : LightNet n := { x with net := { x.net with air := [] } }

/-- A complete instruction: a set-effect packet with effect, delay and palette, or a control packet
with delay, red, green and blue. -/
def Complete (p : Packet) : Prop :=
  (p.type = .setEffect ∧ 3 ≤ p.len.toNat) ∨ (p.type = .setControl ∧ 4 ≤ p.len.toNat)

/-- The last iteration of board `i`, in which it computed its LEDs, had the input `inp`, and was
not skipped because of the battery. -/
def JustShown {n} (env : Board.Env) (x : LightNet n) (i : Fin n) (inp : Board.Input) : Prop :=
  ∃ s h, x.iter i = (s, inp, x.board i) :: h ∧ BoardAwake env s inp

/-- The steps `h` (newest first) contain a heartbeat heard, and the last one was heard at `t`. -/
def LastHeartbeatAt (h : List Entry) (t : U32) : Prop :=
  ∃ h₁ e h₂, h = h₁ ++ e :: h₂ ∧ Entry.HeardMaster e ∧ (∀ a ∈ h₁, ¬ Entry.HeardMaster a) ∧
    Entry.time e = t

/-- The steps `h` contain an instruction heard, and the device was told nothing else later. -/
def HeardInstruction (h : List Entry) : Prop :=
  ∃ h₁ e h₂ p, h = h₁ ++ e :: h₂ ∧ Entry.heard e = some p ∧ IsInstruction p ∧ ∀ a ∈ h₁, Untold a

end Firefly.Spec
