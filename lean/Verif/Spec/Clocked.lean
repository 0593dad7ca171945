import Verif.Model.Clocked
import Verif.Spec.History

/-! # Specification vocabulary for a clock that advances while the code runs -/

namespace Firefly.Spec

/-- The clock never goes back, from power-on at `t₀` through all readings of all steps (`h` newest
first), and stays clear of the wrap-around. -/
def Advancing (t₀ : U32) (h : List Timed) : Prop :=
  (h.flatMap (fun x => x.reads.list.reverse) ++ [t₀]).Pairwise (· ≥ ·) ∧
  ∀ t ∈ h.flatMap (fun x => x.reads.list) ++ [t₀], t.toNat + 255000 < 2 ^ 32

/-- When a step began and ended: its first and its last reading. -/
def began (x : Timed) : Nat := x.reads.first.toNat
def ended (x : Timed) : Nat := x.reads.changeTimer.toNat

/-- The steps from which a slave counts the silence: it resigned, or heard a heartbeat or claim. -/
def SignStep (x : Timed) : Prop := Entry.HeardMaster x.entry ∨ Entry.Demoted x.entry

/-- The packet is a heartbeat that says the network time is `t`, in its first four bytes. -/
def SaysTime (p : Packet) (t : U32) : Prop :=
  p.type = .heartbeat ∧ t.toNat = p.data[0].toNat * 2 ^ 24 + p.data[1].toNat * 2 ^ 16 +
    p.data[2].toNat * 2 ^ 8 + p.data[3].toNat

/-- In this step the device, a slave, heard a heartbeat that says the network time is `t`. -/
def HeardTime (x : Timed) (t : U32) : Prop :=
  x.entry.pre.getCurrentState = .slave ∧ ∃ p, Entry.heard x.entry = some p ∧ SaysTime p t

end Firefly.Spec
