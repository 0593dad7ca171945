import Verif.Spec.Odds

/-! # Specification vocabulary for two masters that meet -/

namespace Firefly.Spec

/-- Two devices `a` and `b`: `a` runs at `ta` and `ta'` on its clock, `b` in between, at `tb` on its clock. -/
structure Duel where
  a : Node
  b : Node
  ta : U32
  tb : U32
  ta' : U32

/-- Both are masters, and `a` transmits a heartbeat at `ta`, whatever it draws. -/
structure Duel.Proper (d : Duel) : Prop where
  runA : ∃ t₀ h, Run .arduino t₀ h d.a
  runB : ∃ t₀ h, Run .arduino t₀ h d.b
  masterA : d.a.getCurrentState = .master
  masterB : d.b.getCurrentState = .master
  beats : ∀ r, ∃ a' p, { d.a with rand := r }.radioTick .arduino d.ta none = .ok a' ∧
    a'.sent = d.a.sent ++ [p] ∧ p.type = .heartbeat

/-- With the random numbers `ra` and `rb`, the packet that `a` transmits is new to `b`, `a` then gets what
`b` transmitted last, and the devices are `a'` and `b'` after that. -/
def Duel.Ends (d : Duel) (ra rb : Rand) (a' b' : Node) : Prop :=
  ∃ a₁ p, { d.a with rand := ra }.radioTick .arduino d.ta none = .ok a₁ ∧ a₁.sent = d.a.sent ++ [p] ∧
    Hears d.b (some p) p ∧ { d.b with rand := rb }.radioTick .arduino d.tb (some p) = .ok b' ∧
    a₁.radioTick .arduino d.ta' b'.sent.getLast? = .ok a'

/-- The sender of the heartbeat remains the only master of the two. -/
def Duel.SenderWins (d : Duel) (ra rb : Rand) : Prop :=
  ∃ a' b', d.Ends ra rb a' b' ∧ a'.getCurrentState = .master ∧ b'.getCurrentState = .slave

/-- The listener remains the only master of the two. -/
def Duel.ListenerWins (d : Duel) (ra rb : Rand) : Prop :=
  ∃ a' b', d.Ends ra rb a' b' ∧ a'.getCurrentState = .slave ∧ b'.getCurrentState = .master

end Firefly.Spec
