import Verif.Props.Wrap
import Verif.Lemmas.Example

/-! # Concrete runs across the wrap-around of the clock (C163) -/

namespace Firefly.Props
open Spec

namespace WrapDemo

/-- `n` ms before the wrap-around. -/
def left (n : Nat) : U32 := .ofNat 32 (2 ^ 32 - n)

def beat (id : U16) : Option Packet := some ⟨id, .heartbeat, 4, Vector.replicate 58 0⟩

/-- A slave hears a heartbeat 3 s before the wrap-around. -/
def heard : List Op := [.radioTick (left 3000) (beat 77)]
/-- A device takes over after 8 s and sends a heartbeat 500 ms before the wrap-around. -/
def beats : List Op := [.radioTick 8000 none, .radioTick (left 500) none]
/-- A device takes over after 8 s, sends a heartbeat 30 s before the wrap-around and chooses an effect
10 ms later. -/
def choice : List Op := [.setNumEffects 0 20, .setNumPalettes 0 7, .radioTick 8000 none,
  .radioTick (left 30000) none, .radioTick (left 29990) none]
/-- As `choice`, choosing 1 minute before the wrap-around. -/
def choice' : List Op := [.setNumEffects 0 20, .setNumPalettes 0 7, .radioTick 8000 none,
  .radioTick (left 60010) none, .radioTick (left 60000) none]
/-- A heartbeat exactly 1 s before the wrap-around. -/
def beats' : List Op := [.radioTick 8000 none, .radioTick (left 1000) none]
/-- A heartbeat 1001 ms before the wrap-around: the clock is never past the second before that. -/
def beats'' : List Op := [.radioTick 8000 none, .radioTick (left 1001) none]
/-- A slave hears a heartbeat 5003 ms before the wrap-around. -/
def heard' : List Op := [.radioTick (left 5003) (beat 77)]

def rand : Rand := fun n => 2 * n + 1

/-- The step is an own heartbeat. -/
def ownB (e : Entry) : Bool := decide (Entry.IsTick e) && (Entry.heard e).isNone &&
  (Entry.transmitted e).any fun p => decide (p.type = .heartbeat)

theorem ownB_sound {e : Entry} (h : ownB e = true) : Entry.OwnHeartbeat e := by
  simp only [ownB, Bool.and_eq_true, decide_eq_true_eq, List.any_eq_true, Option.isNone_iff_eq_none] at h
  exact ⟨h.1.1, h.1.2, h.2⟩

/-- No local instruction in the history. -/
def properB (h : List Entry) : Bool := h.all fun e => match e.op with | .setEffect _ _ => false | _ => true

theorem properB_sound {h : List Entry} (k : properB h = true) : ProperUse h := by
  intro e he now p ho
  have := List.all_eq_true.1 k e he
  rw [ho] at this
  cases this

/-- A check of the last step and the history. -/
def lastB (f : Entry → Bool) : List Entry → Node → Bool
  | [], _ => false
  | e :: h, _ => f e && properB (e :: h)

theorem last_of {ops : List Op} (f : Entry → Bool)
    (k : (bootRun .arduino 0 rand ops).any (fun x => lastB f x.1 x.2) = true) :
    ∃ e h s, Run .arduino 0 (e :: h) s ∧ ProperUse (e :: h) ∧ f e = true := by
  obtain ⟨h, s, r, c⟩ := run_of_check _ k
  cases h with
  | nil => cases c
  | cons e h =>
    rw [lastB, Bool.and_eq_true] at c
    exact ⟨e, h, s, r, properB_sound c.2, c.1⟩

/-- Undisturbed and changed: a choice. -/
theorem choice_step {plat t₀ e h s} (r : Run plat t₀ (e :: h) s) (u : untoldB e = true)
    (hp : ¬ Entry.Promoted e) (hn : ¬ SameContent e.post.getSetEffect e.pre.getSetEffect) :
    ∃ q, FreshChoice plat e q ∧ ¬ Repeats e q := by
  obtain ⟨r', st, _⟩ := r.cons_inv
  rcases undisturbed_step (s := e.pre) r'.wf st ⟨untoldB_sound u, hp⟩ with h | ⟨⟨q, hf⟩, _⟩
  · exact absurd h.2.1 hn
  · exact ⟨q, hf, fun hr => hn hr.kept⟩

end WrapDemo

open WrapDemo

/-- The hypotheses of `wrap_false_alarm`. -/
example : ∃ e h s, Run .arduino 0 (e :: h) s ∧ ProperUse (e :: h) ∧ Entry.HeardMaster e ∧
    s.getCurrentState = .slave ∧ Entry.LeftBelow 5000 e := by
  obtain ⟨e, h, s, r, p, c⟩ := last_of (ops := heard) (fun e =>
    decide (∃ p, Entry.heard e = some p ∧ (p.type = .heartbeat ∨ p.type = .claimMaster)) &&
    decide (e.post.getCurrentState = .slave ∧ 2 ^ 32 < (Entry.time e).toNat + 5000)) (by decide +kernel)
  simp only [Bool.and_eq_true, decide_eq_true_eq] at c
  exact ⟨e, h, s, r, p, c.1, r.cons_inv.2.2 ▸ c.2.1, c.2.2⟩

/-- The hypotheses of `wrap_heartbeat_flood`; that silent ticks follow is seen in `wrap_flood_demo`. -/
example : ∃ e h s, Run .arduino 0 (e :: h) s ∧ ProperUse (e :: h) ∧ Entry.OwnHeartbeat e ∧
    Entry.LeftBelow 1000 e := by
  obtain ⟨e, h, s, r, p, c⟩ := last_of (ops := beats) (fun e => ownB e &&
    decide (2 ^ 32 < (Entry.time e).toNat + 1000)) (by decide +kernel)
  simp only [Bool.and_eq_true, decide_eq_true_eq] at c
  exact ⟨e, h, s, r, p, ownB_sound c.1, c.2⟩

/-- The hypotheses of `wrap_choice_flood` and `wrap_rotation_resumes`, and of `wrap_rotation_stops`. -/
example : (∃ e h s q, Run .arduino 0 (e :: h) s ∧ FreshChoice .arduino e q ∧ ¬ Repeats e q ∧
      Entry.LeftBelow 60000 e) ∧
    (∃ e h s q, Run .arduino 0 (e :: h) s ∧ FreshChoice .arduino e q ∧ ¬ Repeats e q ∧
      (Entry.time e).toNat + 60000 = 2 ^ 32) := by
  constructor
  · obtain ⟨e, h, s, r, _, c⟩ := last_of (ops := choice) (fun e => untoldB e &&
      decide (¬ Entry.Promoted e) && decide (¬ SameContent e.post.getSetEffect e.pre.getSetEffect) &&
      decide (2 ^ 32 < (Entry.time e).toNat + 60000)) (by decide +kernel)
    simp only [Bool.and_eq_true, decide_eq_true_eq] at c
    obtain ⟨q, h1, h2⟩ := choice_step r c.1.1.1 c.1.1.2 c.1.2
    exact ⟨e, h, s, q, r, h1, h2, c.2⟩
  · obtain ⟨e, h, s, r, _, c⟩ := last_of (ops := choice') (fun e => untoldB e &&
      decide (¬ Entry.Promoted e) && decide (¬ SameContent e.post.getSetEffect e.pre.getSetEffect) &&
      decide ((Entry.time e).toNat + 60000 = 2 ^ 32)) (by decide +kernel)
    simp only [Bool.and_eq_true, decide_eq_true_eq] at c
    obtain ⟨q, h1, h2⟩ := choice_step r c.1.1.1 c.1.1.2 c.1.2
    exact ⟨e, h, s, q, r, h1, h2, c.2⟩

/-- The hypotheses of `wrap_silent_master` in both cases, and of `wrap_deaf_slave`. -/
example : (∃ e h s, Run .arduino 0 (e :: h) s ∧ ProperUse (e :: h) ∧ Entry.OwnHeartbeat e ∧
      (Entry.time e).toNat + 1000 = 2 ^ 32) ∧
    (∃ e h s, Run .arduino 0 (e :: h) s ∧ ProperUse (e :: h) ∧ Entry.OwnHeartbeat e ∧
      (Entry.time e).toNat + 1000 < 2 ^ 32) ∧
    (∃ e h s, Run .arduino 0 (e :: h) s ∧ ProperUse (e :: h) ∧ Entry.HeardMaster e ∧
      e.pre.getCurrentState = .slave ∧ (Entry.time e).toNat + 5000 + e.pre.rand 0 % 2000 = 2 ^ 32) := by
  refine ⟨?_, ?_, ?_⟩
  · obtain ⟨e, h, s, r, p, c⟩ := last_of (ops := beats') (fun e => ownB e &&
      decide ((Entry.time e).toNat + 1000 = 2 ^ 32)) (by decide +kernel)
    simp only [Bool.and_eq_true, decide_eq_true_eq] at c
    exact ⟨e, h, s, r, p, ownB_sound c.1, c.2⟩
  · obtain ⟨e, h, s, r, p, c⟩ := last_of (ops := beats'') (fun e => ownB e &&
      decide ((Entry.time e).toNat + 1000 < 2 ^ 32)) (by decide +kernel)
    simp only [Bool.and_eq_true, decide_eq_true_eq] at c
    exact ⟨e, h, s, r, p, ownB_sound c.1, c.2⟩
  · obtain ⟨e, h, s, r, p, c⟩ := last_of (ops := heard') (fun e =>
      decide (∃ p, Entry.heard e = some p ∧ (p.type = .heartbeat ∨ p.type = .claimMaster)) &&
      decide (e.pre.getCurrentState = .slave ∧ (Entry.time e).toNat + 5000 + e.pre.rand 0 % 2000 = 2 ^ 32))
      (by decide +kernel)
    simp only [Bool.and_eq_true, decide_eq_true_eq] at c
    exact ⟨e, h, s, r, p, c.1, c.2.1, c.2.2⟩

/-- What a run shows: time left until the wrap-around, role after the step, and the types of the packets
sent. -/
def WrapDemo.shown (ops : List Op) : Option (List (Nat × Bool × List PType)) :=
  (bootRun .arduino 0 rand ops).map fun x => x.1.reverse.map fun e =>
    (2 ^ 32 - (Entry.time e).toNat, decide (e.post.getCurrentState = .master),
      (Entry.transmitted e).map (·.type))

/-- A slave takes over in the millisecond in which it hears a heartbeat; a master sends heartbeats in four
ticks within 30 ms; a master chooses four effects within 30 ms; and a master whose clock wraps around sends no
heartbeat although 8 hours go by. -/
theorem wrap_flood_demo :
    WrapDemo.shown (heard ++ [.radioTick (left 3000) none]) =
      some [(3000, false, [.heartbeat]), (3000, true, [.heartbeat])] ∧
    WrapDemo.shown (beats ++ [.radioTick (left 490) none, .radioTick (left 480) none,
        .radioTick (left 470) none]) =
      some [(2 ^ 32 - 8000, true, [.heartbeat]), (500, true, [.heartbeat]), (490, true, [.heartbeat]),
        (480, true, [.heartbeat]), (470, true, [.heartbeat])] ∧
    WrapDemo.shown (choice.drop 2 ++ [.radioTick (left 29980) none, .radioTick (left 29970) none,
        .radioTick (left 29960) none]) =
      some [(2 ^ 32 - 8000, true, [.heartbeat]), (30000, true, [.heartbeat]), (29990, true, [.setEffect]),
        (29980, true, [.setEffect]), (29970, true, [.setEffect]), (29960, true, [.setEffect])] ∧
    (WrapDemo.shown (beats'' ++ [.radioTick (left 1) none, .radioTick 10 none, .radioTick 30000000 none,
        .radioTick 30000010 none])).map (fun l => (l.drop 2).map fun x => (x.2.1, x.2.2.contains .heartbeat)) =
      some [(true, false), (true, false), (true, false), (true, false)] := by
  refine ⟨?_, ?_, ?_, ?_⟩ <;> decide +kernel

end Firefly.Props
