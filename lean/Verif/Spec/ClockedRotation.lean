import Verif.Spec.Clocked
import Verif.Spec.Instruction

/-! # Specification vocabulary for the rotation on a clock that advances while the code runs -/

namespace Firefly.Spec

/-- As long as it is undisturbed and every step ends by local time `D`, the device keeps its instruction
and effect number. -/
def PacedHolds (plat : Platform) (s : Node) (D : Nat) : Prop :=
  ∀ t h s', Paced plat s h s' → Advancing t h → (∀ x ∈ h, Undisturbed x.entry ∧ ended x ≤ D) →
    SameContent s'.getSetEffect s.getSetEffect ∧ s'.getEffectIndex = s.getEffectIndex

/-- Undisturbed, the device has made an own choice at the latest in the second of two consecutive radio
ticks that begin after local time `D`, in which it is master and hears nothing, provided the second ends at
most 1000 ms after the first began. -/
def PacedChanges (plat : Platform) (s : Node) (D : Nat) : Prop :=
  ∀ t h x₁ x₂ s', Paced plat s (x₂ :: x₁ :: h) s' → Advancing t (x₂ :: x₁ :: h) →
    (∀ x ∈ h, Undisturbed x.entry) →
    (∀ x ∈ [x₁, x₂], Entry.IsTick x.entry ∧ Entry.heard x.entry = none ∧
      x.entry.pre.getCurrentState = .master) →
    D < began x₁ → ended x₂ ≤ began x₁ + 1000 →
    ∃ x ∈ x₂ :: x₁ :: h, ∃ q, FreshChoice plat x.entry q

/-- Undisturbed, the device never changes its instruction, however long it runs. -/
def PacedNever (plat : Platform) (s : Node) : Prop :=
  ∀ h s', Paced plat s h s' → (∀ x ∈ h, Undisturbed x.entry) →
    SameContent s'.getSetEffect s.getSetEffect ∧ s'.getEffectIndex = s.getEffectIndex

/-- The last change that the device saw as slave was seen between local times `lo` and `hi`: in a step that
began at `lo` and ended at `hi`. If it saw none, both are 0. -/
def LastSeen (h : List Timed) (lo hi : Nat) : Prop :=
  (lo = 0 ∧ hi = 0 ∧ ∀ x ∈ h, ¬ ChangeSeen x.entry) ∨
  ∃ h₁ y h₂, h = h₁ ++ y :: h₂ ∧ ChangeSeen y.entry ∧ lo = began y ∧ hi = ended y ∧
    ∀ x ∈ h₁, ¬ ChangeSeen x.entry

/-- All set-effect packets heard carry effect numbers below 128. -/
def SmallEffectsR (h : List Timed) : Prop :=
  ∀ x ∈ h, ∀ p, Entry.heard x.entry = some p → p.type = .setEffect → p.data[0].toNat < 128

end Firefly.Spec
