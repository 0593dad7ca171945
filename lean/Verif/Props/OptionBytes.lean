import Verif.Spec.OptionBytes

/-! # The boot option is written at most once (C167) -/

namespace Firefly
open Spec OptionBytes

namespace OptionBytes

theorem clear_mask (v m : U32) : (v &&& ~~~m) &&& m = 0 := by
  ext i hi
  simp

theorem clear_rest (v m : U32) : (v &&& ~~~m) &&& ~~~m = v &&& ~~~m := by
  ext i hi
  simp

theorem set_mask (v m : U32) : (v ||| m) &&& m = m := by
  ext i hi
  simp
  intro h
  simp [h]

theorem set_rest (v m : U32) : (v ||| m) &&& ~~~m = v &&& ~~~m := by
  ext i hi
  simp
  cases v[i] <;> cases m[i] <;> rfl

/-- The possible results of a start: nothing to do; interrupted before the programming; programmed. -/
theorem run_cases (mask : U32) (c : Cpu) (s : Start) (hm : mask ≠ 0) :
    (Suits mask s.firmware (s.cause.wake c).optr ∧ s.run mask c = s.cause.wake c) ∨
    (¬ Suits mask s.firmware (s.cause.wake c).optr ∧ s.cut ≠ none ∧
      (s.run mask c).stored = c.stored ∧ (s.run mask c).programmed = c.programmed ∧
      (s.run mask c).optr &&& ~~~mask = (s.cause.wake c).optr &&& ~~~mask) ∨
    (¬ Suits mask s.firmware (s.cause.wake c).optr ∧
      (s.run mask c).stored = (s.run mask c).optr ∧ (s.run mask c).programmed = c.programmed + 1 ∧
      Suits mask s.firmware (s.run mask c).optr ∧
      (s.run mask c).optr &&& ~~~mask = (s.cause.wake c).optr &&& ~~~mask) := by
  obtain ⟨cause, fw, cut⟩ := s
  have h1 : (cause.wake c).stored = c.stored := by cases cause <;> rfl
  have h2 : (cause.wake c).programmed = c.programmed := by cases cause <;> rfl
  have h3 : (cause.wake c).flash = .closed := by cases cause <;> rfl
  have h4 : (cause.wake c).option = .closed := by cases cause <;> rfl
  simp only [Start.run]
  generalize cause.wake c = d at *
  obtain ⟨stored, optr, flash, option, programmed⟩ := d
  simp only at h1 h2 h3 h4
  subst h1 h2 h3 h4
  have e1 := clear_mask optr mask
  have e2 := clear_rest optr mask
  have e3 := set_mask optr mask
  have e4 := set_rest optr mask
  cases fw with
  | fancyNode =>
    by_cases h : optr &&& mask = 0
    · left
      refine ⟨h, ?_⟩
      simp only [setup]
      rw [if_neg (fun k => k h)]
      cases cut <;> simp
    · right
      simp only [setup]
      rw [if_pos h]
      rcases cut with _ | _ | _ | _ | _ | _ | _ | n
      · exact .inr ⟨h, rfl, rfl, e1, e2⟩
      · exact .inl ⟨h, by simp, rfl, rfl, rfl⟩
      · exact .inl ⟨h, by simp, rfl, rfl, rfl⟩
      · exact .inl ⟨h, by simp, rfl, rfl, rfl⟩
      · exact .inl ⟨h, by simp, rfl, rfl, rfl⟩
      · exact .inl ⟨h, by simp, rfl, rfl, rfl⟩
      · exact .inl ⟨h, by simp, rfl, rfl, e2⟩
      · cases n <;> exact .inr ⟨h, rfl, rfl, e1, e2⟩
  | controller =>
    by_cases h : optr &&& mask ≠ 0
    · left
      refine ⟨h, ?_⟩
      simp only [setup]
      rw [if_neg (fun k => k h)]
      cases cut <;> simp
    · right
      simp only [setup]
      rw [if_pos h]
      rcases cut with _ | _ | _ | _ | _ | _ | _ | n
      · exact .inr ⟨h, rfl, rfl, fun k => hm (e3.symm.trans k), e4⟩
      · exact .inl ⟨h, by simp, rfl, rfl, rfl⟩
      · exact .inl ⟨h, by simp, rfl, rfl, rfl⟩
      · exact .inl ⟨h, by simp, rfl, rfl, rfl⟩
      · exact .inl ⟨h, by simp, rfl, rfl, rfl⟩
      · exact .inl ⟨h, by simp, rfl, rfl, rfl⟩
      · exact .inl ⟨h, by simp, rfl, rfl, e4⟩
      · cases n <;> exact .inr ⟨h, rfl, rfl, fun k => hm (e3.symm.trans k), e4⟩

theorem wake_optr (c : Cpu) (cause : Cause) :
    (cause.wake c).optr = c.optr ∨ (cause.wake c).optr = c.stored := by
  cases cause with
  | power => exact .inr rfl
  | reset kept => cases kept <;> simp [Cause.wake]

theorem wake_stored (c : Cpu) (cause : Cause) : (cause.wake c).stored = c.stored := by
  cases cause <;> rfl

theorem wake_programmed (c : Cpu) (cause : Cause) : (cause.wake c).programmed = c.programmed := by
  cases cause <;> rfl

/-- The other bits, in the option bytes and in the register. -/
theorem life_rest {mask stored : U32} (hm : mask ≠ 0) (h : List Start) :
    (life mask stored h).stored &&& ~~~mask = stored &&& ~~~mask ∧
    (life mask stored h).optr &&& ~~~mask = stored &&& ~~~mask := by
  induction h with
  | nil => exact ⟨rfl, rfl⟩
  | cons s h ih =>
    have hw : (s.cause.wake (life mask stored h)).optr &&& ~~~mask = stored &&& ~~~mask := by
      rcases wake_optr (life mask stored h) s.cause with e | e <;> rw [e]
      · exact ih.2
      · exact ih.1
    simp only [life]
    rcases run_cases mask (life mask stored h) s hm with ⟨_, e⟩ | ⟨_, _, e1, _, e2⟩ | ⟨_, e1, _, _, e2⟩
    · rw [e, wake_stored]
      exact ⟨ih.1, hw⟩
    · rw [e1, e2]
      exact ⟨ih.1, hw⟩
    · rw [e1, e2]
      exact ⟨hw, hw⟩

/-- Either a programming is in hand, or all is settled. -/
theorem life_count {mask stored : U32} (hm : mask ≠ 0) (s : Start) (h : List Start) :
    (life mask stored (s :: h)).programmed ≤ reloads (s :: h) + 1 ∧
    ((life mask stored (s :: h)).programmed = reloads (s :: h) + 1 →
      Suits mask s.firmware (life mask stored (s :: h)).stored ∧
      Suits mask s.firmware (life mask stored (s :: h)).optr) := by
  have step : ∀ (c : Cpu) (s : Start) (N : Nat),
      (c.programmed ≤ N ∨ (c.programmed = N + 1 ∧ Suits mask s.firmware c.stored ∧ Suits mask s.firmware c.optr)) →
      (s.run mask c).programmed ≤ N + 1 ∧ ((s.run mask c).programmed = N + 1 →
        Suits mask s.firmware (s.run mask c).stored ∧ Suits mask s.firmware (s.run mask c).optr) := by
    intro c s N hc
    rcases hc with hc | ⟨hc, h1, h2⟩
    · rcases run_cases mask c s hm with ⟨_, e⟩ | ⟨_, _, _, e1, _⟩ | ⟨_, e1, e2, e3, _⟩
      · rw [e, wake_programmed]
        exact ⟨by omega, by omega⟩
      · rw [e1]
        exact ⟨by omega, by omega⟩
      · rw [e2, e1]
        exact ⟨by omega, fun _ => ⟨e3, e3⟩⟩
    · have hw : Suits mask s.firmware (s.cause.wake c).optr := by
        rcases wake_optr c s.cause with e | e <;> rw [e]
        · exact h2
        · exact h1
      rcases run_cases mask c s hm with ⟨_, e⟩ | ⟨e, _⟩ | ⟨e, _⟩
      · rw [e, wake_programmed, wake_stored]
        exact ⟨by omega, fun _ => ⟨h1, hw⟩⟩
      · exact absurd hw e
      · exact absurd hw e
  induction h generalizing s with
  | nil => exact step (Cpu.new stored) s 0 (.inl (Nat.le_refl _))
  | cons s' h ih =>
    obtain ⟨i1, i2⟩ := ih s'
    have hr : reloads (s :: s' :: h) = reloads (s' :: h) + if s.firmware = s'.firmware then 0 else 1 := rfl
    show (s.run mask (life mask stored (s' :: h))).programmed ≤ _ ∧ _
    rw [hr]
    refine step _ s _ ?_
    split
    · rename_i hf
      rcases Nat.lt_or_ge (life mask stored (s' :: h)).programmed (reloads (s' :: h) + 1) with k | k
      · exact .inl (by omega)
      · have k := Nat.le_antisymm i1 k
        rw [hf]
        exact .inr ⟨k, i2 k⟩
    · exact .inl i1

end OptionBytes

namespace Props

/-- **C167.** Whatever power failures and resets a board lived through, at whatever points, and whichever of the
two programs it ran: a start after power came on that is not interrupted again leaves the option bytes as the
program wants them. -/
theorem boot_option_settles {mask stored : U32} (hm : mask ≠ 0) (h : List Start) (fw : Firmware) :
    Suits mask fw (life mask stored (⟨.power, fw, none⟩ :: h)).stored := by
  simp only [life]
  rcases run_cases mask (life mask stored h) ⟨.power, fw, none⟩ hm with ⟨e1, e⟩ | ⟨_, e, _⟩ | ⟨_, e1, _, e2, _⟩
  · rw [e, wake_stored]
    exact e1
  · exact absurd rfl e
  · rw [e1]
    exact e2

/-- **C167.** No other bit of the option bytes ever changes. -/
theorem boot_option_rest {mask stored : U32} (hm : mask ≠ 0) (h : List Start) :
    (life mask stored h).stored &&& ~~~mask = stored &&& ~~~mask :=
  (life_rest hm h).1

/-- **C167.** The option bytes are programmed at most once, and once more each time the other program is
loaded. -/
theorem boot_option_wear {mask stored : U32} (hm : mask ≠ 0) (h : List Start) :
    (life mask stored h).programmed ≤ reloads h + 1 := by
  cases h with
  | nil => exact Nat.zero_le _
  | cons s h => exact (life_count hm s h).1

/-- A new board with the bit set runs the fancy node's program, loses power after the fourth access, starts, is
reset, and then becomes a controller: two programmings. -/
theorem boot_option_demo :
    life 0x01000000 0xFFFFFEAA [⟨.power, .controller, none⟩, ⟨.reset true, .fancyNode, none⟩,
      ⟨.power, .fancyNode, none⟩, ⟨.power, .fancyNode, some 4⟩] =
      ⟨0xFFFFFEAA, 0xFFFFFEAA, .opened, .opened, 2⟩ ∧
    life 0x01000000 0xFFFFFEAA [⟨.power, .fancyNode, none⟩, ⟨.power, .fancyNode, some 4⟩] =
      ⟨0xFEFFFEAA, 0xFEFFFEAA, .opened, .opened, 1⟩ ∧
    reloads [⟨.power, .controller, none⟩, ⟨.reset true, .fancyNode, none⟩,
      ⟨.power, .fancyNode, none⟩, ⟨.power, .fancyNode, some 4⟩] = 1 := by
  refine ⟨?_, ?_, ?_⟩ <;> decide +kernel

/-- A start after a mere reset may leave the option bytes wrong: if the one before was cut short between the
change of the register and the programming, the register already looks right. -/
theorem boot_option_reset :
    ¬ Suits 0x01000000 .fancyNode (life 0x01000000 0xFFFFFEAA
      [⟨.reset true, .fancyNode, none⟩, ⟨.power, .fancyNode, some 5⟩]).stored := by
  simp only [Suits]
  decide +kernel

end Props
end Firefly
