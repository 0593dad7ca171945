import Verif.Model.LightNet
import Verif.Spec.Board
import Verif.Spec.Frame

/-! # Vocabulary for the safety of a whole installation (C181) -/

namespace Firefly.Spec

/-- A call on a device that is as the programs of the repository make it: the number of effects is not 0, there are 1 to
22 palettes, and an instruction that names an effect is complete and names one of the 22 palettes, or the palette of the
effect that the device follows at the time. -/
def SoundCall (e : Entry) : Prop :=
  (∀ now k, e.op = .setNumEffects now k → k ≠ 0) ∧
  (∀ now k, e.op = .setNumPalettes now k → k ≠ 0 ∧ k.toNat ≤ 22) ∧
  ∀ now p, e.op = .setEffect now p → p.type = .setEffect → 3 ≤ p.len.toNat ∧
    (p.data[2].toNat < 22 ∨
      e.pre.getSetEffect.type = .setEffect ∧ p.data[2] = e.pre.getSetEffect.data[2])

/-- The boards as built: the effects that the repository ships, 1 to 255 LEDs, and at most 32 on a strip marked
controller. -/
structure ShippedBoard (env : Board.Env) : Prop where
  effects : ∃ seeds, shippedRegistry .arduino seeds = .ok env.registry
  some_leds : 1 ≤ totalLeds env.device
  leds : totalLeds env.device ≤ 255
  controller : ∀ strip ∈ env.device.strips, strip.flagEnabled .controller → strip.count.toNat ≤ 32

/-- What a device reads from its radio in an iteration was put on the air by a neighbour. -/
def ReadsAir {n} (nbrs : Fin n → List (Fin n)) (x : LightNet n) (i : Fin n) (inp : Board.Input) : Prop :=
  ∀ f, some f ∈ offered inp → ∃ j, i ∈ nbrs j ∧ (j, f) ∈ x.net.air

end Firefly.Spec
