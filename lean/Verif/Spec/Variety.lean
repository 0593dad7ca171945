import Verif.Spec.Odds

/-! # Specification vocabulary for the variety of the rotation -/

namespace Firefly.Spec

section
variable {K : Nat} (plan : List (Luck K) → Slot) (tail : Rand) (s₀ : Node)

/-- In the step after the draws `l` the device changes the effect of its own accord: nothing is heard, and for
some random numbers the device goes on with another instruction.  (With others it may draw the effect and
palette that it had.) -/
def DrawsAnew (l : List (Luck K)) : Prop :=
  ∃ now rx, plan l = .other (.radioTick now rx) ∧ Quiet (missed plan tail s₀ l).2 rx ∧
    ∃ r s', { (missed plan tail s₀ l).2 with rand := r }.radioTick .arduino now rx = .ok s' ∧
      ¬ SameContent s'.getSetEffect (missed plan tail s₀ l).2.getSetEffect

open Classical in
/-- How often the device changed the effect of its own accord. -/
noncomputable def rotations : List (Luck K) → Nat
  | [] => 0
  | _ :: l => rotations l + if DrawsAnew plan tail s₀ l then 1 else 0

/-- When it did, it went on, at least once, with an effect and a palette that are `Q`. -/
def CameUp (Q : Nat → Nat → Prop) (l : List (Luck K)) : Prop :=
  ∃ ω l', ω :: l' <:+ l ∧ DrawsAnew plan tail s₀ l' ∧
    Q (missed plan tail s₀ (ω :: l')).2.getEffectIndex.toNat
      (missed plan tail s₀ (ω :: l')).2.getSetEffect.data[2].toNat

/-- Nobody tells the device that it knows another number of effects or palettes. -/
structure FixedCounts : Prop where
  effects : ∀ l now c, plan l ≠ .other (.setNumEffects now c)
  palettes : ∀ l now c, plan l ≠ .other (.setNumPalettes now c)

end

end Firefly.Spec
