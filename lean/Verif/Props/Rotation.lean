import Verif.Lemmas.Rotation
import Verif.Lemmas.Example
import Verif.Props.Instruction
import Verif.Props.Election

/-! # Rotation of effects, holding and repetition (C29–C32, C38–C40) -/

namespace Firefly.Props
open Spec

theorem deadline_toNat {t : U32} {d : U8} (ht : t.toNat + 255000 < 2 ^ 32) (hd : d ≠ 0) :
    deadline t d ≠ 0 ∧ (deadline t d).toNat = t.toNat + 1000 * d.toNat := by
  have h1 := Node.delay_toNat d
  have h2 := d.isLt
  have h3 : d.toNat ≠ 0 := fun h => hd (BitVec.eq_of_toNat_eq h)
  have h4 : (deadline t d).toNat = t.toNat + 1000 * d.toNat := by
    rw [deadline, if_neg hd, Node.add_toNat ht (by omega), h1]
    omega
  refine ⟨fun h => ?_, h4⟩
  rw [h] at h4
  have : (0 : U32).toNat = 0 := rfl
  omega

/-- A master that hears an instruction adopts it and arms the rotation with its delay byte. -/
theorem master_hears {plat t₀ h s} (r : Run plat t₀ h s) (hs : s.getCurrentState = .master)
    {t rx p s'} (hp : Hears s rx p) (hpt : IsInstruction p)
    (ht : s.radioTick plat t rx = .ok s') :
    s'.WF ∧ s'.getSetEffect = p ∧ s'.getCurrentState = .master ∧
      s'.timers.changeEffect = deadline t (if p.type = .setEffect then p.data[1] else p.data[0]) := by
  have hst : Op.step plat (.radioTick t rx) s = .ok s' := ht
  have wf' := Node.step_wf r.wf hst
  have hh : Entry.heard ⟨s, .radioTick t rx, s'⟩ = some p := by
    rw [heard_tick r.wf, hp.delivered r.wf]
  cases in_step r.wf hst with
  | keep hu => exact absurd hpt (hu.2 p hh)
  | takeOver hu => exact absurd hpt (hu.2 p hh)
  | locally p' hop' _ hc => cases hop'
  | slaveHeard p' hh' _ hs' => rw [Node.getCurrentState] at hs; rw [hs] at hs'; cases hs'
  | masterHeard p' hh' _ _ hs' hc _ hce =>
    rw [hh] at hh'; cases hh'
    exact ⟨wf', hc, hs', hce⟩
  | change q hf => rw [hf.silent] at hh; cases hh
  | repeats q hf => rw [hf.silent] at hh; cases hh

/-- C29, C30 (delay at least 1 s).  A master that handles a set-effect or control packet with delay
`d ≥ 1` at local time `t` adopts it, keeps it up to time `t + 1000 d` if undisturbed, and
changes the effect on its own after that. -/
theorem requested_effect_held_then_rotates {plat t₀ h s} (r : Run plat t₀ h s)
    (hs : s.getCurrentState = .master) {t rx p s'} (hp : Hears s rx p) (hpt : IsInstruction p)
    (ht : s.radioTick plat t rx = .ok s') (hd : 1 ≤ requestedDelay p)
    (hw : t.toNat + 255000 < 2 ^ 32) :
    s'.getSetEffect = p ∧ RotatesAt plat s' (t.toNat + 1000 * requestedDelay p) := by
  obtain ⟨wf', h1, _, h3⟩ := master_hears r hs hp hpt ht
  refine ⟨h1, ?_⟩
  have key : ∀ d : U8, 1 ≤ d.toNat → s'.timers.changeEffect = deadline t d →
      RotatesAt plat s' (t.toNat + 1000 * d.toNat) := by
    intro d hd hce
    have hd0 : d ≠ 0 := by rintro rfl; simp at hd
    obtain ⟨h4, h5⟩ := deadline_toNat hw hd0
    rw [← h5, ← hce]
    exact rotates_of_timer wf' (by rw [hce]; exact h4)
  unfold requestedDelay at hd ⊢
  split at hd <;> rename_i htype
  · rw [if_pos htype] at h3 ⊢; exact key _ hd h3
  · rw [if_neg htype] at h3 ⊢; exact key _ hd h3

/-- C30 (delay 0, refutation).  A master that handles a set-effect or control packet with delay 0
never changes the effect on its own again, however long it runs undisturbed. -/
theorem zero_delay_stops_rotation {plat t₀ h s} (r : Run plat t₀ h s)
    (hs : s.getCurrentState = .master) {t rx p s'} (hp : Hears s rx p) (hpt : IsInstruction p)
    (ht : s.radioTick plat t rx = .ok s') (hd : requestedDelay p = 0) :
    s'.getCurrentState = .master ∧ NeverRotates plat s' := by
  obtain ⟨wf', _, h2, h3⟩ := master_hears r hs hp hpt ht
  refine ⟨h2, never_of_timer wf' ?_⟩
  have key : ∀ d : U8, d.toNat = 0 → deadline t d = 0 := by
    intro d hd
    have hd0 : d = 0 := BitVec.eq_of_toNat_eq hd
    rw [deadline, if_pos hd0]
  unfold requestedDelay at hd
  rw [h3]
  split at hd <;> rename_i htype
  · rw [if_pos htype]; exact key _ hd
  · rw [if_neg htype]; exact key _ hd

open Demo in
/-- The hypotheses are met: the master `boot 0` hears any set-effect or control packet with
id 77, in particular ones with delay 0 and ones with delay 3. -/
example (p : Packet) (hp : IsInstruction p) (hid : p.id = 77) : ∃ s',
    Run .arduino 0 (boot 0).1 (boot 0).2 ∧ (boot 0).2.getCurrentState = .master ∧
    Hears (boot 0).2 (some p) p ∧ IsInstruction p ∧
    (boot 0).2.radioTick .arduino 6500 (some p) = .ok s' := by
  have hd : (boot 0).2.delivered (some p) = some p := by
    have : 77 ∉ (boot 0).2.nm.cache.toList := by decide +kernel
    simp only [Node.delivered]
    rw [if_neg (by rw [hid]; exact this)]
  have wf := (boot_run 0).wf
  rcases Node.radioTick_result (plat := .arduino) (now := 6500) (rx := some p) wf with
    ⟨s', h2, _⟩ | ⟨h, _⟩ | ⟨h, _⟩
  · exact ⟨s', boot_run 0, boot_master 0, hears_of_delivered wf hd, hp, h2⟩
  · cases h
  · cases h

/-! ### Take-over -/

/-- All set-effect packets heard carry effect numbers below 128. -/
def SmallEffects (h : List Entry) : Prop :=
  ∀ e ∈ h, ∀ p, Entry.heard e = some p → p.type = .setEffect → p.data[0].toNat < 128

theorem small_ne_iff {a b : U8} (ha : a.toNat < 128) : (a.toNat : Int) ≠ b.toInt ↔ a ≠ b := by
  have h : a.toInt = (a.toNat : Int) := by
    rw [BitVec.toInt_eq_toNat_cond, if_pos (by omega)]
  rw [← h]
  exact not_congr BitVec.toInt_inj

theorem seen_step {plat op} {s s' : Node} (wf : s.WF) (ht : Op.step plat op s = .ok s')
    (hsm : ∀ p, Entry.heard ⟨s, op, s'⟩ = some p → p.type = .setEffect → p.data[0].toNat < 128) :
    (ChangeSeen ⟨s, op, s'⟩ → s'.effectChangeSeenAt = op.time) ∧
    (¬ ChangeSeen ⟨s, op, s'⟩ → s'.effectChangeSeenAt = s.effectChangeSeenAt) := by
  cases in_step wf ht with
  | keep hu _ _ _ _ _ hseen =>
    refine ⟨?_, fun _ => hseen⟩
    rintro ⟨_, p, hh, hp | hp⟩
    · exact absurd (Or.inr hp) (hu.2 p hh)
    · exact absurd (Or.inl hp.1) (hu.2 p hh)
  | takeOver hu _ _ hh _ _ _ _ hseen =>
    refine ⟨?_, fun _ => hseen⟩
    rintro ⟨_, p, hh', _⟩
    rw [hh] at hh'; cases hh'
  | locally p' hop' _ _ _ _ _ hseen =>
    refine ⟨?_, fun _ => hseen⟩
    rintro ⟨_, p, hh', _⟩
    rw [hop'] at hh'; cases hh'
  | slaveHeard p hh hp hs _ _ _ _ _ hseen =>
    have hiff : ChangeSeen ⟨s, op, s'⟩ ↔ (p.type = .setControl ∨
        (p.data[0].toNat : Int) ≠ s.effectIndex.toInt ∨
          p.data[2] ≠ s.setEffectPacket.data[2]) := by
      constructor
      · rintro ⟨_, q, hq, hc⟩
        rw [hh] at hq; cases hq
        rcases hc with hc | ⟨h1, h2⟩
        · exact Or.inl hc
        · rw [small_ne_iff (hsm p hh h1)]
          exact Or.inr h2
      · intro hc
        refine ⟨hs, p, hh, ?_⟩
        rcases hp with hp | hp
        · rw [small_ne_iff (hsm p hh hp)] at hc
          rcases hc with hc | hc
          · exact Or.inl hc
          · exact Or.inr ⟨hp, hc⟩
        · exact Or.inl hp
    rw [hiff, hseen]
    exact ⟨fun h => if_pos h, fun h => if_neg h⟩
  | masterHeard p hh _ hs _ _ _ _ _ hseen =>
    refine ⟨?_, fun _ => hseen⟩
    rintro ⟨hs', _⟩
    rw [Node.getCurrentState, hs] at hs'; cases hs'
  | change q hf _ _ _ _ _ _ hseen =>
    refine ⟨?_, fun _ => hseen⟩
    rintro ⟨_, p, hh', _⟩
    rw [hf.silent] at hh'; cases hh'
  | repeats q hf _ _ _ _ _ _ _ hseen =>
    refine ⟨?_, fun _ => hseen⟩
    rintro ⟨_, p, hh', _⟩
    rw [hf.silent] at hh'; cases hh'

theorem LastTime.cons_pos {P : Entry → Prop} {e h} (hp : P e) :
    LastTime P (e :: h) (Entry.time e) :=
  Or.inr ⟨[], e, h, rfl, hp, rfl, by simp⟩

theorem LastTime.cons_neg {P : Entry → Prop} {e h t} (hp : ¬ P e) (hl : LastTime P h t) :
    LastTime P (e :: h) t := by
  rcases hl with ⟨h0, hall⟩ | ⟨h₁, e', h₂, heq, h1, h2, h3⟩
  · left
    refine ⟨h0, fun e' he' => ?_⟩
    rcases List.mem_cons.1 he' with rfl | he'
    · exact hp
    · exact hall e' he'
  · right
    refine ⟨e :: h₁, e', h₂, by rw [heq]; rfl, h1, h2, fun x hx => ?_⟩
    rcases List.mem_cons.1 hx with rfl | hx
    · exact hp
    · exact h3 x hx

theorem LastTime.unique {P : Entry → Prop} : ∀ {h : List Entry} {t t' : U32},
    LastTime P h t → LastTime P h t' → t = t'
  | [], t, t', h1, h2 => by
    rcases h1 with ⟨h1, _⟩ | ⟨a, e, b, h, _⟩
    · rcases h2 with ⟨h2, _⟩ | ⟨a, e, b, h, _⟩
      · rw [h1, h2]
      · cases a <;> cases h
    · cases a <;> cases h
  | e :: h, t, t', h1, h2 => by
    have key : ∀ {u}, LastTime P (e :: h) u → (P e ∧ u = Entry.time e) ∨ (¬ P e ∧ LastTime P h u) := by
      rintro u (⟨h0, hall⟩ | ⟨a, e', b, heq, g1, g2, g3⟩)
      · exact Or.inr ⟨hall e List.mem_cons_self,
          Or.inl ⟨h0, fun x hx => hall x (List.mem_cons_of_mem _ hx)⟩⟩
      · cases a with
        | nil => cases heq; exact Or.inl ⟨g1, g2⟩
        | cons x a =>
          cases heq
          exact Or.inr ⟨g3 e List.mem_cons_self, Or.inr ⟨a, e', b, rfl, g1, g2,
            fun y hy => g3 y (List.mem_cons_of_mem _ hy)⟩⟩
    rcases key h1 with ⟨a1, a2⟩ | ⟨a1, a2⟩ <;> rcases key h2 with ⟨b1, b2⟩ | ⟨b1, b2⟩
    · rw [a2, b2]
    · exact absurd a1 b1
    · exact absurd b1 a1
    · exact LastTime.unique a2 b2

theorem last_change_seen {plat t₀ h s} (r : Run plat t₀ h s) (hsm : SmallEffects h) :
    LastTime ChangeSeen h s.effectChangeSeenAt := by
  obtain ⟨rand, j, j', x⟩ := r
  induction x with
  | nil => exact Or.inl ⟨rfl, by simp⟩
  | @cons h s op s' hx hst ih =>
    obtain ⟨h1, h2⟩ := seen_step (hx.wf .init) hst (fun p => hsm _ List.mem_cons_self p)
    by_cases hc : ChangeSeen ⟨s, op, s'⟩
    · rw [h1 hc]; exact LastTime.cons_pos (e := ⟨s, op, s'⟩) hc
    · rw [h2 hc]
      exact LastTime.cons_neg hc (ih fun e he => hsm e (List.mem_cons_of_mem _ he))

/-- The rotation timer of a device right after it took over. -/
theorem takeover_timer {plat t₀ e h s} (r : Run plat t₀ (e :: h) s) (hp : Entry.Promoted e) :
    s.timers.changeEffect =
        if Node.takeoverDelay (Entry.time e) e.pre.effectChangeSeenAt = 0 then 0
        else Entry.time e + Node.takeoverDelay (Entry.time e) e.pre.effectChangeSeenAt := by
  obtain ⟨r', hst, rfl⟩ := r.cons_inv
  have h1 := hp.1
  have h2 := hp.2
  rw [Node.getCurrentState] at h1 h2
  cases in_step r'.wf hst with
  | keep hu hst' =>
    rcases hst' with h | ⟨h, _⟩
    · rw [h, h1] at h2; cases h2
    · rw [h1] at h; cases h
  | takeOver hu _ _ hh _ _ hce => exact hce
  | locally p' hop' h => rw [h, h1] at h2; cases h2
  | slaveHeard p hh hp hs h => rw [h] at h2; cases h2
  | masterHeard p hh _ hs => rw [h1] at hs; cases hs
  | change q hf hs => rw [h1] at hs; cases hs
  | repeats q hf _ hs => rw [h1] at hs; cases hs

theorem takeover_rotation {plat t₀ e h s} (r : Run plat t₀ (e :: h) s) (hp : Entry.Promoted e)
    (hw : (Entry.time e).toNat + 255000 < 2 ^ 32)
    (T : U32) (hT : e.pre.effectChangeSeenAt = T) (hle : T.toNat ≤ (Entry.time e).toNat) :
    (T.toNat + 60000 < (Entry.time e).toNat → RotatesAt plat s ((Entry.time e).toNat + 1)) ∧
    ((Entry.time e).toNat < T.toNat + 60000 → RotatesAt plat s (T.toNat + 60000)) ∧
    ((Entry.time e).toNat = T.toNat + 60000 → NeverRotates plat s) := by
  have hce := takeover_timer r hp
  have wf := r.wf
  rw [hT] at hce
  have hsub : (Entry.time e - T).toNat = (Entry.time e).toNat - T.toNat := by
    rw [BitVec.toNat_sub]; have := T.isLt; omega
  have h6 : kChangeEffectInterval.toNat = 60000 := rfl
  refine ⟨fun hlt => ?_, fun hlt => ?_, fun heq => ?_⟩
  · have hd : Node.takeoverDelay (Entry.time e) T = 1 := by
      rw [Node.takeoverDelay, if_pos (by rw [BitVec.lt_def, hsub, h6]; omega)]
    rw [hd, if_neg (by decide)] at hce
    have hn : s.timers.changeEffect.toNat = (Entry.time e).toNat + 1 := by
      rw [hce]; exact Node.add_toNat hw (by decide)
    rw [← hn]
    refine rotates_of_timer wf fun h0 => ?_
    rw [h0] at hn; simp at hn
  · have hd : (Node.takeoverDelay (Entry.time e) T).toNat =
        60000 - ((Entry.time e).toNat - T.toNat) := by
      rw [Node.takeoverDelay, if_neg (by rw [BitVec.lt_def, hsub, h6]; omega), BitVec.toNat_sub,
        hsub, h6]
      omega
    have hne : Node.takeoverDelay (Entry.time e) T ≠ 0 := by
      intro h0; rw [h0] at hd; simp at hd; omega
    rw [if_neg hne] at hce
    have hn : s.timers.changeEffect.toNat = T.toNat + 60000 := by
      rw [hce, Node.add_toNat hw (by omega), hd]; omega
    rw [← hn]
    refine rotates_of_timer wf fun h0 => ?_
    rw [h0] at hn; simp at hn
  · have hd : Node.takeoverDelay (Entry.time e) T = 0 := by
      apply BitVec.eq_of_toNat_eq
      rw [Node.takeoverDelay, if_neg (by rw [BitVec.lt_def, hsub, h6]; omega), BitVec.toNat_sub,
        hsub, h6, heq]
      simp
    rw [if_pos hd] at hce
    exact never_of_timer wf hce

/-- C31.  A device takes over in step `e`; `T` is the time of the last change it saw as slave
(0 if it never saw one).  If that is more than 60 s ago, it rotates at once; if it is less than
60 s ago, it rotates 60 s after `T`; if it is exactly 60 s ago (refutation of the general
claim), it never rotates while undisturbed. -/
theorem takeover_keeps_cadence {plat t₀ e h s} (r : Run plat t₀ (e :: h) s)
    (c : Clock t₀ (e :: h)) (hsm : SmallEffects h) (hp : Entry.Promoted e) (T : U32)
    (hT : LastTime ChangeSeen h T) :
    (T.toNat + 60000 < (Entry.time e).toNat → RotatesAt plat s ((Entry.time e).toNat + 1)) ∧
    ((Entry.time e).toNat < T.toNat + 60000 → RotatesAt plat s (T.toNat + 60000)) ∧
    ((Entry.time e).toNat = T.toNat + 60000 → NeverRotates plat s) := by
  obtain ⟨_, hw, _, hle⟩ := c.cons
  refine takeover_rotation r hp hw T
    (LastTime.unique (last_change_seen r.cons_inv.1 hsm) hT) ?_
  rcases hT with ⟨rfl, _⟩ | ⟨h₁, e', h₂, heq, _, rfl, _⟩
  · simp
  · exact hle e' (by rw [heq]; simp)

/-- Whether a history is a take-over at `now`, the last change having been seen at `t`. -/
def Demo.isTakeover (now t : U32) : List Entry → Bool
  | [a, b, d] => decide (Entry.Promoted a) && decide (Entry.time a = now) &&
      decide (¬ ChangeSeen b) && decide (ChangeSeen d) && decide (Entry.time d = t) &&
      clockOk ([a, b, d].map Entry.time ++ [0]) &&
      [b, d].all fun e => decide (∀ p, Entry.heard e = some p → p.type = .setEffect →
        p.data[0].toNat < 128)
  | _ => false

/-- A history as in `takeover_keeps_cadence`: effect 5 heard at `t`, repeated at `u`, take-over
at `now`. -/
theorem Demo.takeover_run {t u now : U32} {rand : Rand}
    (h : (bootRun .host 0 rand [
      .radioTick t (some ⟨99, .setEffect, 3, (Vector.replicate 58 0).set 0 5⟩),
      .radioTick u (some ⟨98, .setEffect, 3, (Vector.replicate 58 0).set 0 5⟩),
      .radioTick now none]).any (fun x => Demo.isTakeover now t x.1) = true) :
    ∃ e h s, Run .host 0 (e :: h) s ∧ Clock 0 (e :: h) ∧ SmallEffects h ∧ Entry.Promoted e ∧
      LastTime ChangeSeen h t ∧ Entry.time e = now := by
  obtain ⟨h, s, r, hc⟩ := run_of_check (fun h _ => Demo.isTakeover now t h) h
  unfold Demo.isTakeover at hc
  split at hc
  · rename_i a b d
    simp only [Bool.and_eq_true, decide_eq_true_eq, List.all_eq_true] at hc
    obtain ⟨⟨⟨⟨⟨⟨h1, h2⟩, h3⟩, h4⟩, h5⟩, h6⟩, h7⟩ := hc
    exact ⟨a, [b, d], s, r, clock_of_check h6, h7, h1,
      LastTime.cons_neg h3 (h5 ▸ LastTime.cons_pos h4), h2⟩
  · cases hc

/-- Take-over 7 s, more than 60 s, and exactly 60 s after the last change seen (a repetition of
the effect in between does not count). -/
example : (∃ e h s, Run .host 0 (e :: h) s ∧ Clock 0 (e :: h) ∧ SmallEffects h ∧
      Entry.Promoted e ∧ LastTime ChangeSeen h 100 ∧ Entry.time e = 7100) ∧
    (∃ e h s, Run .host 0 (e :: h) s ∧ Clock 0 (e :: h) ∧ SmallEffects h ∧
      Entry.Promoted e ∧ LastTime ChangeSeen h 100 ∧ Entry.time e = 70000) ∧
    (∃ e h s, Run .host 0 (e :: h) s ∧ Clock 0 (e :: h) ∧ SmallEffects h ∧
      Entry.Promoted e ∧ LastTime ChangeSeen h 100 ∧ Entry.time e = 60100) :=
  ⟨Demo.takeover_run (u := 2000) (rand := fun n => n) (by decide +kernel),
   Demo.takeover_run (u := 2000) (rand := fun n => n) (by decide +kernel),
   Demo.takeover_run (u := 2000) (rand := fun n => n) (by decide +kernel)⟩

/-- C32.  A slave that hears its current effect (below 128) with the palette of its current
instruction again does not count it as a change: the last change seen stays what it was. -/
theorem same_effect_is_no_change {e : Entry} {p : Packet} (hh : Entry.heard e = some p)
    (hp : p.type = .setEffect) (h1 : p.data[0] = e.pre.getEffectIndex)
    (h2 : p.data[2] = e.pre.getSetEffect.data[2]) {h t} :
    LastTime ChangeSeen (e :: h) t ↔ LastTime ChangeSeen h t := by
  have hn : ¬ ChangeSeen e := by
    rintro ⟨_, q, hq, hc⟩
    rw [hh] at hq; cases hq
    rcases hc with hc | ⟨_, hc | hc⟩
    · rw [hp] at hc; cases hc
    · exact hc h1
    · exact hc h2
  constructor
  · intro hl
    rcases hl with ⟨h0, hall⟩ | ⟨a, e', b, heq, c1, c2, c3⟩
    · exact Or.inl ⟨h0, fun x hx => hall x (List.mem_cons_of_mem _ hx)⟩
    · cases a with
      | nil => cases heq; exact absurd c1 hn
      | cons x a =>
        cases heq
        exact Or.inr ⟨a, e', b, rfl, c1, c2, fun y hy => c3 y (List.mem_cons_of_mem _ hy)⟩
  · exact LastTime.cons_neg hn

/-- C32.  However often a device hears the current effect and palette again (`h`, newest first:
repeats and steps in which it is told nothing), it rotates, once it has taken over in step `e`,
as if the repeats had not been heard: 60 s after the last change `T` before them. -/
theorem repeats_keep_cadence {plat t₀ e h hist s} (r : Run plat t₀ (e :: (h ++ hist)) s)
    (c : Clock t₀ (e :: (h ++ hist))) (hsm : SmallEffects (h ++ hist)) (hp : Entry.Promoted e)
    (hrep : ∀ e' ∈ h, HearsRepeat e' ∨ Untold e') (T : U32) (hT : LastTime ChangeSeen hist T) :
    (T.toNat + 60000 < (Entry.time e).toNat → RotatesAt plat s ((Entry.time e).toNat + 1)) ∧
    ((Entry.time e).toNat < T.toNat + 60000 → RotatesAt plat s (T.toNat + 60000)) ∧
    ((Entry.time e).toNat = T.toNat + 60000 → NeverRotates plat s) := by
  refine takeover_keeps_cadence r c hsm hp T ?_
  clear r c hsm hp
  induction h with
  | nil => exact hT
  | cons x h ih =>
    have hx := ih fun e' he' => hrep e' (List.mem_cons_of_mem _ he')
    rcases hrep x List.mem_cons_self with ⟨p, hh, h1, h2, h3⟩ | ⟨_, hu⟩
    · exact (same_effect_is_no_change hh h1 h2 h3).2 hx
    · refine LastTime.cons_neg ?_ hx
      rintro ⟨_, p, hh, hc⟩
      exact hu p hh (hc.elim Or.inr fun h => Or.inl h.1)

/-- Whether a history is a take-over at `now` after a repeat, the last change having been seen
at `t`. -/
def Demo.isRepeatTakeover (now t : U32) : List Entry → Bool
  | [a, b, d] => decide (Entry.Promoted a) && decide (Entry.time a = now) &&
      decide (∃ p, Entry.heard b = some p ∧ (p.type = .setEffect ∧
        p.data[0] = b.pre.getEffectIndex ∧ p.data[2] = b.pre.getSetEffect.data[2])) &&
      decide (ChangeSeen d) && decide (Entry.time d = t) &&
      clockOk ([a, b, d].map Entry.time ++ [0]) &&
      [b, d].all fun e => decide (∀ p, Entry.heard e = some p → p.type = .setEffect →
        p.data[0].toNat < 128)
  | _ => false

/-- Effect 5 heard at 100 ms, repeated at 5000 ms, take-over at 13000 ms: the hypotheses of
`repeats_keep_cadence`. -/
example : ∃ e b d s, Run .host 0 (e :: ([b] ++ [d])) s ∧ Clock 0 (e :: ([b] ++ [d])) ∧
    SmallEffects ([b] ++ [d]) ∧ Entry.Promoted e ∧ HearsRepeat b ∧
    LastTime ChangeSeen [d] 100 ∧ Entry.time e = 13000 := by
  obtain ⟨h, s, r, hc⟩ := run_of_check (plat := .host) (t₀ := 0) (rand := fun n => n)
    (ops := [.radioTick 100 (some ⟨99, .setEffect, 3, (Vector.replicate 58 0).set 0 5⟩),
      .radioTick 5000 (some ⟨98, .setEffect, 3, (Vector.replicate 58 0).set 0 5⟩),
      .radioTick 13000 none])
    (fun h _ => Demo.isRepeatTakeover 13000 100 h) (by decide +kernel)
  unfold Demo.isRepeatTakeover at hc
  split at hc
  · rename_i a b d
    simp only [Bool.and_eq_true, decide_eq_true_eq, List.all_eq_true] at hc
    obtain ⟨⟨⟨⟨⟨⟨h1, h2⟩, h3⟩, h4⟩, h5⟩, h6⟩, h7⟩ := hc
    exact ⟨a, b, d, s, r, clock_of_check h6, fun e he => h7 e he, h1, h3,
      h5 ▸ LastTime.cons_pos h4, h2⟩
  · cases hc

theorem seen_untold {plat s h s'} (wf : s.WF) (x : Exec plat s h s') (hu : ∀ e ∈ h, Untold e) :
    s'.effectChangeSeenAt = s.effectChangeSeenAt := by
  induction x with
  | nil => rfl
  | @cons h s₁ op s₂ hx hst ih =>
    rw [← ih fun e he => hu e (List.mem_cons_of_mem _ he)]
    have u := hu _ List.mem_cons_self
    cases in_step (hx.wf wf) hst with
    | keep _ _ _ _ _ _ hseen => exact hseen
    | takeOver _ _ _ _ _ _ _ _ hseen => exact hseen
    | locally p hop => exact absurd hop (u.1 _ _)
    | slaveHeard p hh hp => exact absurd hp (u.2 p hh)
    | masterHeard p hh hp => exact absurd hp (u.2 p hh)
    | change q _ _ _ _ _ _ _ hseen => exact hseen
    | repeats q _ _ _ _ _ _ _ _ hseen => exact hseen

theorem exec_append {plat s₀ s₁ h₁ h₂ s₂} (x : Exec plat s₀ h₁ s₁) (y : Exec plat s₁ h₂ s₂) :
    Exec plat s₀ (h₂ ++ h₁) s₂ := by
  induction y with
  | nil => exact x
  | cons op _ hst ih => exact .cons op ih hst

/-- C32 (refutation for effects from 128 on).  A slave that hears a set-effect packet with effect
number 128 or more — also a mere repetition of its current effect — and, told nothing else,
takes over less than 60 s later, rotates 60 s after that repetition. -/
theorem repeat_of_large_effect_counts_as_change {plat t₀ hist s} (r : Run plat t₀ hist s)
    (hs : s.getCurrentState = .slave) {t rx p s'} (hp : Hears s rx p) (hpt : p.type = .setEffect)
    (hbig : 128 ≤ p.data[0].toNat) (ht : s.radioTick plat t rx = .ok s')
    {e h s''} (x : Exec plat s' (e :: h) s'') (hu : ∀ e ∈ h, Untold e) (hpr : Entry.Promoted e)
    (hw : (Entry.time e).toNat + 255000 < 2 ^ 32) (hle : t.toNat ≤ (Entry.time e).toNat)
    (hlt : (Entry.time e).toNat < t.toNat + 60000) :
    RotatesAt plat s'' (t.toNat + 60000) := by
  have hst : Op.step plat (.radioTick t rx) s = .ok s' := ht
  have wf' := Node.step_wf r.wf hst
  have hh : Entry.heard ⟨s, .radioTick t rx, s'⟩ = some p := by
    rw [heard_tick r.wf, hp.delivered r.wf]
  have hneg : (p.data[0].toNat : Int) ≠ s.effectIndex.toInt := by
    have h1 : s.effectIndex.toInt < 128 := by
      have := @BitVec.toInt_lt 8 s.effectIndex; simpa using this
    omega
  have hseen : s'.effectChangeSeenAt = t := by
    cases in_step r.wf hst with
    | keep hu' => exact absurd (Or.inl hpt) (hu'.2 p hh)
    | takeOver hu' => exact absurd (Or.inl hpt) (hu'.2 p hh)
    | locally p' hop' _ hc => cases hop'
    | slaveHeard p' hh' _ _ _ _ _ _ _ hseen =>
      rw [hh] at hh'; cases hh'
      rw [hseen, if_pos (Or.inr (Or.inl hneg))]; rfl
    | masterHeard p' hh' _ hs' => rw [Node.getCurrentState] at hs; rw [hs] at hs'; cases hs'
    | change q hf => rw [hf.silent] at hh; cases hh
    | repeats q hf => rw [hf.silent] at hh; cases hh
  cases x with
  | @cons _ s₁ op _ x hst' =>
  have hT : s₁.effectChangeSeenAt = t := (seen_untold wf' x hu).trans hseen
  obtain ⟨rand, j, j', y⟩ := r
  have r' : Run plat t₀ (⟨s₁, op, s''⟩ :: (h ++ ⟨s, .radioTick t rx, s'⟩ :: hist)) s'' :=
    ⟨rand, j, j', .cons op (exec_append (.cons _ y hst) x) hst'⟩
  exact (takeover_rotation r' hpr hw t hT hle).2.1 hlt

/-- Such a history: effect 200 heard at 100 ms and, repeated, at 2000 ms, take-over at 7100 ms;
the rotation comes at 62000 ms, not at 60100 ms. -/
example : ∃ hist s rx p s' e s'', Run .arduino 0 hist s ∧ s.getCurrentState = .slave ∧
    Hears s rx p ∧ p.type = .setEffect ∧ p.data[0] = s.getEffectIndex ∧
    128 ≤ p.data[0].toNat ∧ s.radioTick .arduino 2000 rx = .ok s' ∧
    Exec .arduino s' [e] s'' ∧ Entry.Promoted e ∧ (Entry.time e).toNat = 7100 := by
  obtain ⟨h, s, r, hc⟩ := run_of_check (plat := .arduino) (t₀ := 0) (rand := fun n => n)
    (ops := [.radioTick 100 (some ⟨99, .setEffect, 3, (Vector.replicate 58 0).set 0 200⟩),
      .radioTick 2000 (some ⟨98, .setEffect, 3, (Vector.replicate 58 0).set 0 200⟩),
      .radioTick 7100 none])
    (fun h _ => match h with
      | [a, b, _] => decide (Entry.Promoted a) && decide ((Entry.time a).toNat = 7100) &&
          decide (b.pre.getCurrentState = .slave) && decide (Entry.IsTick b) &&
          decide (Entry.time b = 2000) && decide (∃ p, Entry.heard b = some p ∧ (p.type = .setEffect ∧
            p.data[0] = b.pre.getEffectIndex ∧ 128 ≤ p.data[0].toNat))
      | _ => false) (by decide +kernel)
  split at hc
  · rename_i a b d
    simp only [Bool.and_eq_true, decide_eq_true_eq] at hc
    obtain ⟨⟨⟨⟨⟨h1, h2⟩, h3⟩, h4⟩, h5⟩, p, h6, h7, h8, h9⟩ := hc
    obtain ⟨r', hst, rfl⟩ := r.cons_inv
    obtain ⟨r'', hst', heq⟩ := r'.cons_inv
    obtain ⟨pre, op, post⟩ := b
    obtain ⟨now, rx, rfl⟩ := h4
    have h5' : now = 2000 := h5
    subst h5'
    have hd : pre.delivered rx = some p := by rw [← heard_tick (s' := post) r''.wf]; exact h6
    simp only at heq
    refine ⟨_, pre, rx, p, post, a, a.post, r'', h3, hears_of_delivered r''.wf hd, h7, h8, h9,
      hst', ?_, h1, h2⟩
    rw [heq]
    obtain ⟨apre, aop, apost⟩ := a
    exact .cons aop .nil hst
  · cases hc

/-! ### Local SetEffect -/

theorem local_timer {plat} {s' : Node} {t : U32} {d : U8} (wf' : s'.WF) (hw : t.toNat + 255000 < 2 ^ 32)
    (hce : s'.timers.changeEffect =
      t + (if d = 0 then kChangeEffectInterval else d.setWidth 32 * 1000)) :
    RotatesAt plat s' (t.toNat + 1000 * (if d = 0 then 60 else d.toNat)) := by
  have hn : s'.timers.changeEffect.toNat = t.toNat + 1000 * (if d = 0 then 60 else d.toNat) ∧
      s'.timers.changeEffect.toNat ≠ 0 := by
    by_cases hd : d = 0
    · rw [if_pos hd] at hce ⊢
      rw [hce, Node.add_toNat hw (by decide)]
      have : kChangeEffectInterval.toNat = 60000 := rfl
      omega
    · rw [if_neg hd] at hce ⊢
      have h1 := Node.delay_toNat d
      have h2 := d.isLt
      have h3 : d.toNat ≠ 0 := fun h => hd (BitVec.eq_of_toNat_eq h)
      rw [hce, Node.add_toNat hw (by omega), h1]
      omega
  rw [← hn.1]
  exact rotates_of_timer wf' fun h0 => hn.2 (by rw [h0]; rfl)

/-- C38.  A successful local `SetEffect` with a set-effect packet at once makes it the current
instruction and effect, transmits exactly that content with a freshly drawn id, and holds it
for its delay (60 s if the delay is 0), after which the device rotates if it is master. -/
theorem local_setEffect {plat t₀ h s} (r : Run plat t₀ h s) (t : U32) (p : Packet)
    (hp : p.type = .setEffect) (hl : p.len = 3) (hw : t.toNat + 255000 < 2 ^ 32) :
    ∃ s' q, s.setEffect plat t p = .ok s' ∧ SameContent s'.getSetEffect p ∧
      s'.getEffectIndex = p.data[0] ∧
      Entry.transmitted ⟨s, .setEffect t p, s'⟩ = [q] ∧ SameContent q p ∧
      (∃ rest, randomRange plat 2 0xFFFF s.rand = .ok (q.id, rest)) ∧
      RotatesAt plat s' (t.toNat + 1000 * (if p.data[1] = 0 then 60 else p.data[1].toNat)) := by
  have wf := r.wf
  have hok : s.setEffect plat t p = .ok (Node.afterSetEffect plat t p s) := by
    rw [Node.setEffect_eq wf.idx, if_neg (by simp [hp, hl])]
  have wf' : (Node.afterSetEffect plat t p s).WF := Node.step_wf (op := .setEffect t p) wf hok
  refine ⟨_, Node.stamped plat p s, hok, ⟨rfl, rfl, rfl⟩, rfl,
    by simp [Entry.transmitted, Node.afterSetEffect], ⟨rfl, rfl, rfl⟩,
    ⟨_, randomRange_send plat s.rand⟩, ?_⟩
  exact local_timer wf' hw rfl

/-- C39 (refutation).  A local `SetEffect` with a control packet (a colour with a delay in byte 0
and red in byte 1): the host build aborts; the Arduino build holds the colour for as many seconds
as the red channel says (60 s if red is 0), whatever the requested delay. -/
theorem colour_request_held_for_red_seconds {t₀ h s} (plat : Platform) (r : Run plat t₀ h s)
    (t : U32) (p : Packet) (hp : p.type = .setControl) (hw : t.toNat + 255000 < 2 ^ 32) :
    (plat = .host → s.setEffect plat t p = .error .assertFail) ∧
    (plat = .arduino → ∃ s', s.setEffect plat t p = .ok s' ∧ SameContent s'.getSetEffect p ∧
      RotatesAt plat s' (t.toNat + 1000 * (if p.data[1] = 0 then 60 else p.data[1].toNat))) := by
  have wf := r.wf
  constructor
  · rintro rfl
    rw [Node.setEffect_eq wf.idx, if_pos (by simp [hp])]
  · rintro rfl
    have hok : s.setEffect .arduino t p = .ok (Node.afterSetEffect .arduino t p s) := by
      rw [Node.setEffect_eq wf.idx, if_neg (by simp)]
    have wf' : (Node.afterSetEffect .arduino t p s).WF :=
      Node.step_wf (op := .setEffect t p) wf hok
    exact ⟨_, hok, ⟨rfl, rfl, rfl⟩, local_timer wf' hw rfl⟩

/-- The refutation is real: a control packet with delay 60 and red 1, sent by the controller's
colour mode, is held for one second only. -/
example {t₀ h s} (r : Run .arduino t₀ h s) (t : U32) (hw : t.toNat + 255000 < 2 ^ 32)
    (p : Packet) (hp : p.type = .setControl) (_delay : requestedDelay p = 60)
    (hr : p.data[1] = 1) :
    ∃ s', s.setEffect .arduino t p = .ok s' ∧ RotatesAt .arduino s' (t.toNat + 1000) := by
  obtain ⟨s', h1, _, h2⟩ := (colour_request_held_for_red_seconds .arduino r t p hp hw).2 rfl
  rw [hr] at h2
  exact ⟨s', h1, h2⟩

end Firefly.Props
