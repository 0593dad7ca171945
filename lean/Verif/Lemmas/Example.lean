import Verif.Lemmas.Instruction

/-! # Tools for concrete examples -/

namespace Firefly
open Spec

/-- A run from power-on that passes a check exists if executing the operations passes it. -/
theorem run_of_check {plat t₀ rand ops} (chk : List Entry → Node → Bool)
    (e : (bootRun plat t₀ rand ops).any (fun x => chk x.1 x.2) = true) :
    ∃ h s, Run plat t₀ h s ∧ chk h s = true := by
  cases hb : bootRun plat t₀ rand ops with
  | none => rw [hb] at e; cases e
  | some x =>
    rw [hb] at e
    obtain ⟨h, s⟩ := x
    exact ⟨h, s, bootRun_run hb, by simpa using e⟩

instance (e : Entry) : Decidable (Entry.Promoted e) := inferInstanceAs (Decidable (_ ∧ _))
instance (e : Entry) : Decidable (Entry.Demoted e) := inferInstanceAs (Decidable (_ ∧ _))

instance (e : Entry) : Decidable (Entry.IsTick e) :=
  match h : e.op with
  | .radioTick now rx => isTrue ⟨now, rx, h⟩
  | .setEffect _ _ => isFalse (by rintro ⟨_, _, h'⟩; rw [h] at h'; cases h')
  | .setNumEffects _ _ => isFalse (by rintro ⟨_, _, h'⟩; rw [h] at h'; cases h')
  | .setNumPalettes _ _ => isFalse (by rintro ⟨_, _, h'⟩; rw [h] at h'; cases h')
  | .endTick _ => isFalse (by rintro ⟨_, _, h'⟩; rw [h] at h'; cases h')

/-- Deciding a statement about an optional packet. -/
instance decExistsSome {o : Option Packet} {P : Packet → Prop} [∀ p, Decidable (P p)] :
    Decidable (∃ p, o = some p ∧ P p) :=
  match o with
  | none => isFalse (by rintro ⟨p, h, _⟩; cases h)
  | some p => if h : P p then isTrue ⟨p, rfl, h⟩ else
      isFalse (by rintro ⟨q, h', hq⟩; cases h'; exact h hq)

instance (e : Entry) : Decidable (ChangeSeen e) := inferInstanceAs (Decidable (_ ∧ ∃ _, _ ∧ _))

instance decForallSome {o : Option Packet} {P : Packet → Prop} [∀ p, Decidable (P p)] :
    Decidable (∀ p, o = some p → P p) :=
  match o with
  | none => isTrue nofun
  | some p => if h : P p then isTrue (by rintro _ ⟨⟩; exact h) else
      isFalse (fun h' => h (h' p rfl))

/-- Executable form of `Untold`. -/
def untoldB (e : Entry) : Bool :=
  (match e.op with | .setEffect _ _ => false | _ => true) &&
    decide (∀ p, Entry.heard e = some p → ¬ IsInstruction p)

theorem untoldB_sound {e : Entry} (h : untoldB e = true) : Untold e := by
  unfold untoldB at h
  rw [Bool.and_eq_true] at h
  refine ⟨fun now p hop => ?_, by simpa using h.2⟩
  rw [hop] at h
  cases h.1

/-- Executable form of `Clock` on a history. -/
theorem clock_of_check {t₀ : U32} {h : List Entry}
    (e : clockOk (h.map Entry.time ++ [t₀]) = true) : Clock t₀ h := clockOk_sound e

instance (p q : Packet) : Decidable (SameContent p q) := inferInstanceAs (Decidable (_ ∧ _ ∧ _))

theorem decExistsEq {l : List Packet} {P : Packet → Prop} [∀ p, Decidable (P p)] :
    (∃ q, l = [q] ∧ P q) ↔ (match l with | [q] => decide (P q) | _ => false) = true := by
  constructor
  · rintro ⟨q, rfl, h⟩; simpa using h
  · intro h
    split at h
    · rename_i q; exact ⟨q, rfl, by simpa using h⟩
    · cases h

/-- Executable form of "the step repeats the current instruction". -/
def repeatsB (e : Entry) : Bool :=
  decide (Entry.IsTick e) && decide (e.pre.getCurrentState = .master) &&
  decide ((Entry.heard e).isNone = true) &&
  (match Entry.transmitted e with
   | [q] => decide (SameContent q e.pre.getSetEffect)
   | _ => false) &&
  decide (SameContent e.post.getSetEffect e.pre.getSetEffect) &&
  decide (e.post.getEffectIndex = e.pre.getEffectIndex)

theorem repeatsB_iff {e : Entry} : repeatsB e = true ↔ ∃ q, Repeats e q := by
  unfold repeatsB
  simp only [Bool.and_eq_true, decide_eq_true_eq, and_assoc]
  constructor
  · rintro ⟨h1, h2, h3, h4, h5, h6⟩
    split at h4
    · rename_i q hq
      exact ⟨q, h1, h2, by simpa using h3, hq, by simpa using h4, h5, h6⟩
    · cases h4
  · rintro ⟨q, h1, h2, h3, h4, h5, h6, h7⟩
    refine ⟨h1, h2, by simp [h3], ?_, h6, h7⟩
    rw [h4]; simpa using h5

end Firefly
