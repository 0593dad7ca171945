import Verif.Lemmas.FakeHeal
import Verif.Props.FakeResetDemo

/-! # The test network recovers from several masters (C149) -/

namespace Firefly.Props
open Spec FakeNet

section
variable {n : Nat} {net mid : Nat → FakeNet n} {R : Nat → List (Fin n)} {loss : Nat → Int}
  {d : Nat → U32} {draws : Nat → Fin n → Nat} {K N : Nat}

/-- C149: whatever happened before, once no packets are lost any more there is a master 7 s later,
and from the first one on there always is. -/
theorem heal_has_master (c : HealCourse net mid R loss d draws K N) (hn : n ≤ 99) (h0 : 0 < n)
    {k : Nat} (hK : K ≤ k) (hk : k ≤ N)
    (h : (net K).now.toNat + 7000 ≤ (net k).now.toNat ∨
      ∃ j, K ≤ j ∧ j ≤ k ∧ (net j).getNumMasters ≠ 0) : (net k).getNumMasters ≠ 0 := by
  have key : ∃ i, ((net k).node i).state = .master := by
    rcases h with h | ⟨j, h1, h2, h3⟩
    · exact c.appears hn h0 hK hk h
    · obtain ⟨q, rfl⟩ : ∃ q, k = j + q := ⟨k - j, by omega⟩
      refine c.some hn h1 ?_ q hk
      apply Classical.byContradiction
      intro hno
      exact h3 (getNumMasters_zero.2 fun i e => hno ⟨i, e⟩)
  obtain ⟨i, hi⟩ := key
  exact fun e => getNumMasters_zero.1 e i hi

/-- C149: then a packet that one device does not know is known to no device but a master that sent
it: what is on its way is heard by all or by none. -/
theorem heal_heard_by_all (c : HealCourse net mid R loss d draws K N) (hn : n ≤ 99) {k : Nat}
    (hK : K ≤ k) (hk : k ≤ N) {q : Packet} (hq : (net k).packet = some q)
    (hi : ∃ i, q.id ∉ memory ((net k).node i)) :
    ∃ B, ((net k).node B).getCurrentState = .master ∧ q ∈ ((net k).node B).sent ∧
      ∀ i, q.id ∈ memory ((net k).node i) ↔ i = B := by
  obtain ⟨i, hi⟩ := hi
  obtain ⟨B, sp, _⟩ := c.speaks hn hK hk hq hi
  obtain ⟨l, e⟩ := sp.mine.last
  have e : ((net k).node B).sent = l ++ [q] := e
  refine ⟨B, sp.mine.master, by rw [e]; simp, fun j => ⟨fun h => ?_, ?_⟩⟩
  · apply Classical.byContradiction
    intro hj
    exact sp.mine.unknown j hj h
  · rintro rfl
    exact memory_recent e (by simp) (by simp)

/-- C149: however many masters there are, when a heartbeat is heard and in the next `(n + 1) (n + 2)`
`Tick`s no master tells the others the effect, then there is one master after that, and it is the
only one for ever. -/
theorem heal_one_master (c : HealCourse net mid R loss d draws K N) (hn : n ≤ 30) {k : Nat}
    (hK : K ≤ k) (hk : k + 1 + (n + 1) * (n + 2) ≤ N) {q : Packet} (hq : (net k).packet = some q)
    (hb : q.type = .heartbeat) (hi : ∃ i, q.id ∉ memory ((net k).node i))
    (hno : ∀ j, k ≤ j → j ≤ k + (n + 1) * (n + 2) → ¬ TellsEffect (net j) (net (j + 1))) :
    ∃ A, ∀ j, k + 1 + (n + 1) * (n + 2) ≤ j → j ≤ N → OnlyMaster (net j) A := by
  obtain ⟨i, hi⟩ := hi
  obtain ⟨A, h⟩ := c.resolves hn hK hq hb hi (Nat.le_refl _) hk hno
  refine ⟨A, fun j h1 h2 i => ?_⟩
  obtain ⟨s₀, cur, L, h', s⟩ := h j h1 h2
  by_cases e : i = A
  · rw [if_pos e, e]; exact s.master
  · rw [if_neg e]; exact (s.slaves i e).1

end

namespace FakeNetwork

/-- Eight seconds pass before the first `Tick`, almost one before the fifth. -/
def healPause (k : Nat) : U32 := if k = 0 then 8000 else if k = 4 then 997 else 1

/-- In the first five `Tick`s everything is lost, then nothing. -/
def healLoss (k : Nat) : Int := if k < 5 then 1 else 0

/-- A network of two after `k` `Tick`s. -/
def healed (r : Fin 2 → Rand) : Nat → Except Fault (FakeNet 2)
  | 0 => two r
  | k + 1 => do
    let net ← healed r k
    ((net.setPacketLoss (healLoss k)).advanceMillis (healPause k)).tick fun _ => 1

/-- The same, where it exists. -/
def healNet (k : Nat) : FakeNet 2 := (healed apart k).toOption.getD noNet

end FakeNetwork

open FakeNetwork in
/-- A concrete case of C149: the two devices of the example of C137, and at first everything is
lost, so that both are masters.  Then nothing is lost: the heartbeat of the first is heard. -/
theorem heal_demo_course :
    HealCourse healNet healNet (fun _ => []) healLoss healPause (fun _ _ => 1) 5 30 ∧
    (healNet 6).getNumMasters = 2 ∧
    (∃ q, (healNet 6).packet = some q ∧ q.type = .heartbeat ∧
      ∃ i, q.id ∉ memory ((healNet 6).node i)) ∧
    ∀ j, 6 ≤ j → j ≤ 18 → ¬ TellsEffect (healNet j) (healNet (j + 1)) := by
  have run : ∀ k ≤ 30, healed apart k = .ok (healNet k) := by
    have h : ∀ k < 31, (healed apart k).toOption.isSome = true := by decide +kernel
    intro k hk
    have := h k (by omega)
    unfold healNet
    cases e : healed apart k with
    | error f => rw [e] at this; cases this
    | ok net => rfl
  have step : ∀ k < 30, (((healNet k).setPacketLoss (healLoss k)).advanceMillis (healPause k)).tick
      (fun _ => 1) = .ok (healNet (k + 1)) := by
    intro k hk
    have := run (k + 1) (by omega)
    rw [healed, run k (by omega)] at this
    exact this
  have checks : ∀ k < 30, 5 ≤ k → isFresh (((healNet k).setPacketLoss 0).advanceMillis 1)
      (healNet (k + 1)) = true := by
    decide +kernel
  have clock : ∀ k < 31, (healNet k).now.toNat + (healPause k).toNat + 255000 < 2 ^ 32 := by
    decide +kernel
  have quiet : (healNet 5).packet.isNone = true ∧
      ∀ i : Fin 2, ((healNet 5).radio i).sent.isNone = true := by decide +kernel
  have late : ∀ k, 5 ≤ k → healLoss k = 0 ∧ healPause k = 1 := by
    intro k hk
    unfold healLoss healPause
    rw [if_neg (by omega), if_neg (by omega), if_neg (by omega)]
    exact ⟨rfl, rfl⟩
  have air : ((healNet 6).packet.any fun q => decide (q.type = .heartbeat) &&
      decide (q.id ∉ memory ((healNet 6).node 1))) = true := by decide +kernel
  have calm : ∀ j < 19, 6 ≤ j → ∀ i : Fin 2, ((own (healNet j) (healNet (j + 1)) i).all fun p =>
      decide (p.type = .heartbeat) || decide (p.type = .claimMaster)) = true := by decide +kernel
  refine ⟨⟨⟨two_booted (run 0 (by decide)), fun k _ => .nil _, fun k hk => step k (by omega),
      fun k hk => clock k (by omega)⟩, ⟨Option.isNone_iff_eq_none.1 quiet.1,
      fun i => Option.isNone_iff_eq_none.1 (quiet.2 i)⟩,
    fun k hK hk => ⟨fun _ => 1, ?_⟩, fun k hK hk => isFresh_sound (checks k hk hK), fun k _ hk => ?_⟩,
    by decide +kernel, ?_, fun j h1 h2 => ?_⟩
  · have := step k hk
    rw [(late k hK).1, (late k hK).2] at this
    exact this
  · have := clock k (by omega)
    omega
  · cases e : (healNet 6).packet with
    | none => rw [e] at air; cases air
    | some q =>
      rw [e] at air
      simp only [Option.any_some, Bool.and_eq_true, decide_eq_true_eq] at air
      exact ⟨q, rfl, air.1, 1, air.2⟩
  · rintro ⟨i, p, hp, h3, h4⟩
    have := List.all_eq_true.1 (calm j (by omega) h1 i) p hp
    simp [h3, h4] at this

open FakeNetwork in
/-- One of them is the only master from the 19th `Tick` on. -/
example : ∃ A, ∀ j, 19 ≤ j → j ≤ 30 → OnlyMaster (healNet j) A := by
  obtain ⟨c, _, ⟨q, hq, hb, hi⟩, hno⟩ := heal_demo_course
  exact heal_one_master c (by decide) (k := 6) (by decide) (by decide) hq hb hi hno

open FakeNetwork in
/-- The heartbeat is known to its sender only. -/
example : ∃ q B, (healNet 6).packet = some q ∧
    ∀ i, q.id ∈ memory ((healNet 6).node i) ↔ i = B := by
  obtain ⟨c, _, ⟨q, hq, _, hi⟩, _⟩ := heal_demo_course
  obtain ⟨B, _, _, h⟩ := heal_heard_by_all c (by decide) (by decide) (by decide) hq hi
  exact ⟨q, B, hq, h⟩

open FakeNetwork in
/-- There is a master throughout. -/
example {k : Nat} (h1 : 6 ≤ k) (h2 : k ≤ 30) : (healNet k).getNumMasters ≠ 0 := by
  obtain ⟨c, h, _⟩ := heal_demo_course
  exact heal_has_master c (by decide) (by decide) (by omega) h2
    (.inr ⟨6, by decide, h1, by rw [h]; decide⟩)

end Firefly.Props
