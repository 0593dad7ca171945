import Verif.Spec.HwNet

/-! # Specification vocabulary for networks that have settled -/

namespace Firefly.Spec

/-- What can happen to a network from `net₀` on: any number of steps (cf. `HwNet.Step`). -/
inductive HwNet.Steps {n} (nbrs : Fin n → List (Fin n)) (net₀ : HwNet n) : HwNet n → Prop
  | refl : HwNet.Steps nbrs net₀ net₀
  | step {net net'} : HwNet.Steps nbrs net₀ net → HwNet.Step nbrs net net' →
      HwNet.Steps nbrs net₀ net'

/-- Device `m` is the only master. -/
def HwNet.SoleMaster {n} (net : HwNet n) (m : Fin n) : Prop :=
  ∀ i, (net.node i).getCurrentState = .master ↔ i = m

/-- What device `i` did since `net₀` (newest first). -/
def since {n} (net₀ net : HwNet n) (i : Fin n) : List Entry :=
  (net.hist i).take ((net.hist i).length - (net₀.hist i).length)

/-- Device `i` keeps hearing a master: at each of its steps since `net₀`, the last heartbeat it
heard (or its power-on or demotion, cf. C17) is at most 5000 ms old. -/
def KeepsHearing {n} (net₀ net : HwNet n) (i : Fin n) : Prop :=
  ∃ t₀, Firefly.Run .arduino t₀ (net.hist i) (net.node i) ∧ Clock t₀ (net.hist i) ∧
    ∀ h₁ e h₂, since net₀ net i = h₁ ++ e :: h₂ →
      ∃ t, Sign t₀ (h₂ ++ net₀.hist i) t ∧ (Entry.time e).toNat ≤ t.toNat + 5000

end Firefly.Spec
