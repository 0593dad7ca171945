import Verif.Spec.Timeline
import Verif.Spec.Recovery

/-! # Specification vocabulary for networks that settle -/

namespace Firefly.Spec

/-- Device `m` turns master at the time `w`, and for `G` ms it is alone in doing so. -/
structure FirstMaster {n} (m : Fin n) (on : Fin n → Nat) (net₀ net : HwNet n) (w G : Nat) : Prop where
  turned : ∃ a ∈ since net₀ net m, Entry.Promoted a ∧ wall on m a = w
  alone : ∀ i, i ≠ m → ∀ e ∈ since net₀ net i, Entry.Promoted e → w + G < wall on i e

/-- From `w` on device `m` finds time for its own business: in every period of `D` ms there is an
iteration in which it hears nothing new. -/
def AttentiveFrom {n} (w : Nat) (m : Fin n) (on : Fin n → Nat) (net₀ : HwNet n) (net : Nat → HwNet n)
    (T : Nat → Nat) (N D : Nat) : Prop :=
  ∀ k ≤ N, ∀ x, w ≤ x → x + D < T k → ∃ a ∈ since net₀ (net k) m,
    Entry.IsTick a ∧ Entry.heard a = none ∧ x ≤ wall on m a ∧ wall on m a ≤ x + D

/-- Whatever device `i` does more than `G` ms after `w`, it has heard a master (or was switched on)
since `w`. -/
def Introduced {n} (i : Fin n) (on : Fin n → Nat) (boot : Fin n → U32) (net₀ net : HwNet n)
    (w G : Nat) : Prop :=
  ∀ h₁ e h₂, since net₀ net i = h₁ ++ e :: h₂ → w + G < wall on i e →
    ∃ t, Sign (boot i) (h₂ ++ net₀.hist i) t ∧ w ≤ on i + t.toNat

/-- Whatever device `i` does more than `L` ms after the last of four heartbeats of `m`, it has heard a
master (or was switched on) since the first of them. -/
def InTouch {n} (m i : Fin n) (on : Fin n → Nat) (boot : Fin n → U32) (net₀ net : HwNet n)
    (L : Nat) : Prop :=
  ∀ h₁ e h₂, since net₀ net i = h₁ ++ e :: h₂ →
    ∀ a b c d, a ∈ since net₀ net m → b ∈ since net₀ net m → c ∈ since net₀ net m →
      d ∈ since net₀ net m → Entry.OwnHeartbeat a → Entry.OwnHeartbeat b → Entry.OwnHeartbeat c →
      Entry.OwnHeartbeat d → wall on m a < wall on m b → wall on m b < wall on m c →
      wall on m c < wall on m d → wall on m d + L < wall on i e →
      ∃ t, Sign (boot i) (h₂ ++ net₀.hist i) t ∧ wall on m a ≤ on i + t.toNat

end Firefly.Spec
