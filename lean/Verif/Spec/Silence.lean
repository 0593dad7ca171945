import Verif.Spec.Odds

/-! # Specification vocabulary for a network whose master has fallen silent -/

namespace Firefly.Spec

/-- Device `who` runs its radio tick at `time`, in ms of a common clock. -/
structure Happening (n : Nat) where
  who : Fin n
  time : Nat
  entry : Entry

/-- What the devices do once the master has fallen silent, newest first, and the devices at the end. They
are as in `s₀` at `T₀`, and nothing is on the air then. Each device runs at least every `L` ms. A device can
get any packet that was transmitted before, or none; and a heartbeat with which a device takes over is heard
by all others within `L` ms. -/
inductive Silence {n : Nat} (on : Fin n → Nat) (T₀ L : Nat) (s₀ : Fin n → Node) :
    List (Happening n) → (Fin n → Node) → Prop
  | nil : Silence on T₀ L s₀ [] s₀
  | cons {h : List (Happening n)} {s : Fin n → Node} (i : Fin n) (t : Nat) (rx : Option Packet) {s' : Node} :
      Silence on T₀ L s₀ h s →
      (start : T₀ ≤ t) →
      (order : ∀ e ∈ h, e.time ≤ t) →
      (runs : ∀ k, t ≤ T₀ + L ∨ ∃ e ∈ h, e.who = k ∧ t ≤ e.time + L) →
      (air : ∀ p, rx = some p → ∃ e ∈ h, p ∈ Entry.transmitted e.entry) →
      (reaches : ∀ e ∈ h, Entry.Promoted e.entry → ∀ p ∈ Entry.transmitted e.entry, e.time + L < t →
        ∀ k, k ≠ e.who → ∃ e' ∈ h, e'.who = k ∧ Entry.heard e'.entry = some p) →
      (step : (s i).radioTick .arduino (BitVec.ofNat 32 (t - on i)) rx = .ok s') →
      Silence on T₀ L s₀ (⟨i, t, ⟨s i, .radioTick (BitVec.ofNat 32 (t - on i)) rx, s'⟩⟩ :: h)
        (fun k => if k = i then s' else s k)

/-- Exactly one device takes over: device `i`, at most `L` ms after `x`. Up to a second after `x` no other
device is ever a master, and device `i` is, as soon as more than `L` ms have passed. -/
def OneTakesOver {n : Nat} (on : Fin n → Nat) (T₀ L : Nat) (s₀ : Fin n → Node) (i : Fin n) (x : Nat) : Prop :=
  ∀ (h : List (Happening n)) (s : Fin n → Node), Silence on T₀ L s₀ h s → (∀ e ∈ h, e.time ≤ x + 1000) →
    (∀ k, (s k).getCurrentState = .master → k = i) ∧
    ((∃ e ∈ h, x + L < e.time) → (s i).getCurrentState = .master)

end Firefly.Spec
