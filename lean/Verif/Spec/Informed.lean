import Verif.Spec.Odds

/-! # Specification vocabulary for a slave that is kept informed -/

namespace Firefly.Spec

/-- The local time of a slot. -/
def Slot.time : Slot → Nat
  | .hear now _ => now.toNat
  | .other op => op.time.toNat

/-- When the last packet reached the device, or `t` if none did so far. -/
def lastReached {K : Nat} (plan : List (Luck K) → Slot) (t : Nat) : List (Luck K) → Nat
  | [] => t
  | _ :: l =>
    match plan l with
    | .hear now _ => now.toNat
    | .other _ => lastReached plan t l

/-- How many packets reached the device so far, heard or not. -/
def reached {K : Nat} (plan : List (Luck K) → Slot) : List (Luck K) → Nat
  | [] => 0
  | _ :: l => reached plan l + (plan l).beats

/-- From `t` on a sign of life of a master reaches the device at least every 1250 ms, and the device runs in
between as it likes: what happens next comes at most 1250 ms after the last sign of life, whatever was drawn
before. (The clock is clear of the wrap-around, and `SetEffect` is only called with set-effect or control
packets.) -/
structure KeptInformed {K : Nat} (plan : List (Luck K) → Slot) (t : Nat) : Prop where
  sign : ∀ l now p, plan l = .hear now p → p.type = .heartbeat ∨ p.type = .claimMaster
  after : ∀ l, lastReached plan t l ≤ (plan l).time
  soon : ∀ l, (plan l).time ≤ lastReached plan t l + 1250
  clock : ∀ l, (plan l).time + 255000 < 2 ^ 32
  proper : ∀ l now p, plan l = .other (.setEffect now p) → IsInstruction p

end Firefly.Spec
