import Verif.Spec.Stability
import Verif.Spec.Instruction
import Verif.Spec.Board

/-! # Specification vocabulary for networks in real time -/

namespace Firefly.Spec

/-- When a step of device `i` took place, in ms of real time: `on i` is when its clock started. -/
def wall {n} (on : Fin n → Nat) (i : Fin n) (e : Entry) : Nat := on i + (Entry.time e).toNat

/-- A network from `net₀` on, in real time.  `net k` is the network after `k` more steps and `T k` the
time.  The steps are in the order of time.  Frames sent before `net₀` are no longer received, and no
clock comes near its end (49 days). -/
structure Timeline {n} (nbrs : Fin n → List (Fin n)) (on : Fin n → Nat) (boot : Fin n → U32)
    (net₀ : HwNet n) (net : Nat → HwNet n) (T : Nat → Nat) (N : Nat) : Prop where
  reach : HwNet.Reach nbrs net₀
  start : net 0 = { net₀ with air := [] }
  step : ∀ k < N, HwNet.Step nbrs (net k) (net (k + 1))
  order : ∀ k < N, T k ≤ T (k + 1)
  time : ∀ k < N, ∀ i e, (net (k + 1)).hist i = e :: (net k).hist i → wall on i e = T (k + 1)
  run : ∀ i, Firefly.Run .arduino (boot i) (net₀.hist i) (net₀.node i)
  clock : ∀ i, Clock (boot i) ((net N).hist i)

/-- At the beginning everybody has heard the last heartbeat of the only master `m`, which is at most
1000 ms old. -/
structure JustHeard {n} (m : Fin n) (on : Fin n → Nat) (boot : Fin n → U32) (net₀ : HwNet n)
    (t₀ : Nat) : Prop where
  sole : HwNet.SoleMaster net₀ m
  past : ∀ e ∈ net₀.hist m, wall on m e ≤ t₀
  beat : ∃ b ∈ net₀.hist m, Entry.OwnHeartbeat b ∧ t₀ ≤ wall on m b + 1000 ∧
    (∀ b' ∈ net₀.hist m, Entry.OwnHeartbeat b' → wall on m b' ≤ wall on m b) ∧
    ∀ i, i ≠ m → ∃ t, Sign (boot i) (net₀.hist i) t ∧ wall on m b ≤ on i + t.toNat

/-- Device `m` finds time for its own business: in every period of `D` ms there is an iteration in
which it hears nothing new. -/
def Attentive {n} (m : Fin n) (on : Fin n → Nat) (net₀ : HwNet n) (net : Nat → HwNet n) (T : Nat → Nat)
    (N D : Nat) : Prop :=
  ∀ k ≤ N, ∀ x, T 0 ≤ x → x + D < T k → ∃ a ∈ since net₀ (net k) m,
    Entry.IsTick a ∧ Entry.heard a = none ∧ x ≤ wall on m a ∧ wall on m a ≤ x + D

/-- Of any four heartbeats of `m`, device `i` hears at least one, at the latest `L` ms after the last of
them was sent. -/
def OneOfFour {n} (m i : Fin n) (on : Fin n → Nat) (net₀ : HwNet n) (net : Nat → HwNet n)
    (T : Nat → Nat) (N L : Nat) : Prop :=
  ∀ k ≤ N, ∀ a b c d, a ∈ since net₀ (net k) m → b ∈ since net₀ (net k) m →
    c ∈ since net₀ (net k) m → d ∈ since net₀ (net k) m →
    Entry.OwnHeartbeat a → Entry.OwnHeartbeat b → Entry.OwnHeartbeat c → Entry.OwnHeartbeat d →
    wall on m a < wall on m b → wall on m b < wall on m c → wall on m c < wall on m d →
    wall on m d + L < T k →
    ∃ e ∈ since net₀ (net k) i, Entry.HeardMaster e ∧ wall on m a ≤ wall on i e ∧
      wall on i e ≤ wall on m d + L

/-- A heartbeat of `m` is heard by `i`, if at all, at most `L` ms after it was sent. -/
def Prompt {n} (m i : Fin n) (on : Fin n → Nat) (net₀ net : HwNet n) (L : Nat) : Prop :=
  ∀ e ∈ since net₀ net i, ∀ p, Entry.heard e = some p → ∀ b ∈ since net₀ net m,
    ∀ q ∈ Entry.transmitted b, q.type = .heartbeat → Carries p q → wall on i e ≤ wall on m b + L

/-- From the time `x` on nobody gives a device an instruction locally, and the one that `m` follows is
`c`. -/
structure Steady {n} (m : Fin n) (on : Fin n → Nat) (net₀ net : HwNet n) (x : Nat) (c : Packet) :
    Prop where
  untouched : ∀ i, ∀ e ∈ since net₀ net i, x ≤ wall on i e → ∀ now p, e.op ≠ .setEffect now p
  follows : ∀ e ∈ since net₀ net m, x ≤ wall on m e → SameContent e.post.getSetEffect c

/-- Of any `K` repetitions of its instruction by `m`, device `i` hears at least one, at most `L` ms
after it was sent. -/
def OneOf {n} (K : Nat) (m i : Fin n) (on : Fin n → Nat) (net₀ : HwNet n) (net : Nat → HwNet n)
    (T : Nat → Nat) (N L : Nat) : Prop :=
  ∀ k ≤ N, ∀ bs : List Entry, bs.length = K →
    (∀ b ∈ bs, b ∈ since net₀ (net k) m ∧ (∃ q, Repeats b q) ∧ wall on m b + L < T k) →
    (bs.Pairwise fun a b => wall on m a < wall on m b) →
    ∃ b ∈ bs, ∃ q, Repeats b q ∧ ∃ e ∈ since net₀ (net k) i, ∃ p, Entry.heard e = some p ∧
      Carries p q ∧ wall on m b ≤ wall on i e ∧ wall on i e ≤ wall on m b + L

/-- The instructions that `i` hears are the frames of devices it is in range of, sent at most `L` ms
before. -/
def Recent {n} (nbrs : Fin n → List (Fin n)) (i : Fin n) (on : Fin n → Nat) (net₀ net : HwNet n)
    (L : Nat) : Prop :=
  ∀ e ∈ since net₀ net i, ∀ p, Entry.heard e = some p → IsInstruction p →
    ∃ j, i ∈ nbrs j ∧ ∃ b ∈ since net₀ net j, ∃ q ∈ Entry.transmitted b, ∃ f,
      Hw.sendPacket q = .ok f ∧ Decodes f p ∧ wall on i e ≤ wall on j b + L

end Firefly.Spec
