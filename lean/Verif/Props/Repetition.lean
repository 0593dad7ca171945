import Verif.Props.Rotation

/-! # The master repeats the current instruction every two seconds (C40) -/

namespace Firefly.Props
open Spec

/-- A moment from which a master counts the two seconds: it took over, or repeated its current
instruction. -/
def Mark (e : Entry) : Prop := Entry.Promoted e ∨ ∃ q, Repeats e q

/-- A repetition that is not at the same time a fresh choice which happens to equal the current
instruction. -/
def PlainRepeat (plat : Platform) (e : Entry) : Prop :=
  ∃ q, Repeats e q ∧ ¬ FreshChoice plat e q

/-- What holds of the repetition timer after every history. -/
structure BcInv (plat : Platform) (h : List Entry) (s : Node) : Prop where
  master : s.state = .master → ∃ e ∈ h, Mark e ∧
    s.timers.broadcastEffect.toNat = (Entry.time e).toNat + 2000
  later : ∀ e ∈ h, PlainRepeat plat e →
    (Entry.time e).toNat + 2000 ≤ s.timers.broadcastEffect.toNat
  apart : h.Pairwise fun e e' => PlainRepeat plat e → PlainRepeat plat e' →
    (Entry.time e').toNat + 2000 < (Entry.time e).toNat

theorem bc_inv {plat t₀ h} : ∀ {s}, Run plat t₀ h s → Clock t₀ h → ProperUse h →
    BcInv plat h s := by
  induction h with
  | nil =>
    intro s r _ _
    obtain ⟨_, _, _, rfl⟩ := r.nil_inv
    refine ⟨fun h => ?_, fun e he => ?_, List.Pairwise.nil⟩
    · cases h
    · cases he
  | cons e h ih =>
    intro s r c p
    obtain ⟨r', hst, rfl⟩ := r.cons_inv
    have inv := ih r' c.cons.1 (ProperUse.cons p).1
    have hins := r'.instruction (ProperUse.cons p).1
    obtain ⟨_, hw, _, hle⟩ := c.cons
    obtain ⟨pre, op, post⟩ := e
    have wf : pre.WF := r'.wf
    -- steps that neither repeat nor touch the timer
    have same : ¬ PlainRepeat plat ⟨pre, op, post⟩ →
        (post.state = .master → pre.state = .master) →
        post.timers.broadcastEffect = pre.timers.broadcastEffect →
        BcInv plat (⟨pre, op, post⟩ :: h) post := by
      intro hn hm hbc
      refine ⟨fun hs => ?_, fun e' he' hr => ?_, ?_⟩
      · obtain ⟨e', he', h1, h2⟩ := inv.master (hm hs)
        exact ⟨e', List.mem_cons_of_mem _ he', h1, by rw [hbc]; exact h2⟩
      · rw [hbc]
        rcases List.mem_cons.1 he' with rfl | he'
        · exact absurd hr hn
        · exact inv.later e' he' hr
      · exact List.pairwise_cons.2 ⟨fun e' _ h1 => absurd h1 hn, inv.apart⟩
    have rearm : Mark ⟨pre, op, post⟩ → post.timers.broadcastEffect = op.time + 2000 →
        (PlainRepeat plat ⟨pre, op, post⟩ → pre.timers.broadcastEffect < op.time) →
        BcInv plat (⟨pre, op, post⟩ :: h) post := by
      intro hm hbc hd
      have hn : post.timers.broadcastEffect.toNat = op.time.toNat + 2000 := by
        rw [hbc]; exact Node.add_toNat hw (by decide)
      refine ⟨fun hs => ⟨_, List.mem_cons_self, hm, hn⟩, fun e' he' hr => ?_, ?_⟩
      · rw [hn]
        rcases List.mem_cons.1 he' with rfl | he'
        · exact Nat.le_refl _
        · have : (Entry.time e').toNat ≤ op.time.toNat := hle e' he'
          omega
      · refine List.pairwise_cons.2 ⟨fun e' he' h1 h2 => ?_, inv.apart⟩
        have h3 := inv.later e' he' h2
        have h4 := BitVec.lt_def.1 (hd h1)
        have : (Entry.time (⟨pre, op, post⟩ : Entry)).toNat = op.time.toNat := rfl
        simp only at h3
        omega
    have quiet : ∀ {q}, Entry.heard ⟨pre, op, post⟩ = some q →
        ¬ PlainRepeat plat ⟨pre, op, post⟩ := by
      rintro q hq ⟨_, hr, _⟩
      rw [hr.silent] at hq; cases hq
    cases in_step wf hst with
    | keep hu hs _ _ _ hbc _ htx =>
      refine same ?_ ?_ hbc
      · rintro ⟨q, hr, _⟩
        refine htx q (by rw [hr.sent]; exact List.mem_cons_self) ?_
        have := hr.same.1
        simp only [Node.getSetEffect] at this
        unfold IsInstruction at hins ⊢
        rw [this]; exact hins
      · intro h1
        rcases hs with hs | ⟨_, hs⟩
        · rw [← hs]; exact h1
        · rw [h1] at hs; cases hs
    | takeOver _ hs hs' _ _ _ _ hbc =>
      refine rearm (Or.inl ⟨hs, hs'⟩) hbc ?_
      rintro ⟨q, hr, _⟩
      have := hr.master
      simp only [Node.getCurrentState] at this
      rw [hs] at this; cases this
    | locally p' hop hs _ _ _ hbc =>
      refine same ?_ (fun h1 => by rw [← hs]; exact h1) hbc
      rintro ⟨q, hr, _⟩
      obtain ⟨now, rx, ht⟩ := hr.tick
      simp only at ht
      rw [ht] at hop; cases hop
    | slaveHeard p' hh _ hs hs' _ _ _ hbc =>
      exact same (quiet hh) (fun h1 => by rw [hs'] at h1; cases h1) hbc
    | masterHeard p' hh _ hs _ _ _ _ hbc => exact same (quiet hh) (fun _ => hs) hbc
    | change q hf hs _ _ _ _ hbc =>
      refine same ?_ (fun _ => hs) hbc
      rintro ⟨q', hr, hn⟩
      have h1 := hr.sent
      rw [hf.sent] at h1
      cases h1
      exact hn hf
    | repeats q hf _ _ _ _ hd _ hbc => exact rearm (Or.inr ⟨q, hf⟩) hbc fun _ => hd

/-- C40 (spacing).  Two repetitions of the current instruction are more than 2000 ms apart. -/
theorem repetitions_apart {plat t₀ h s} (r : Run plat t₀ h s) (c : Clock t₀ h) (p : ProperUse h)
    {h₁ e h₂ e'} (heq : h = h₁ ++ e :: h₂) (he' : e' ∈ h₂) (hr : PlainRepeat plat e)
    (hr' : PlainRepeat plat e') :
    (Entry.time e').toNat + 2000 < (Entry.time e).toNat := by
  have := (bc_inv r c p).apart
  rw [heq, List.pairwise_append] at this
  exact (List.pairwise_cons.1 this.2.1).1 e' he' hr hr'

/-- C40 (cadence).  A master whose take-over and repetitions are all more than 2000 ms old sends
exactly one packet in a radio tick in which it hears nothing new: its heartbeat, a fresh choice
of effect, or — if it does neither of these — the current instruction. -/
theorem repetition_due {plat t₀ h s} (r : Run plat t₀ h s) (c : Clock t₀ h) (p : ProperUse h)
    (hs : s.getCurrentState = .master) {now : U32} {rx : Option Packet} {s' : Node}
    (hq : Quiet s rx) (ht : s.radioTick plat now rx = .ok s')
    (hold : ∀ e ∈ h, Mark e → (Entry.time e).toNat + 2000 < now.toNat) :
    ∃ q, Entry.transmitted ⟨s, .radioTick now rx, s'⟩ = [q] ∧
      (q.type = .heartbeat ∨ FreshChoice plat ⟨s, .radioTick now rx, s'⟩ q ∨
        Repeats ⟨s, .radioTick now rx, s'⟩ q) := by
  obtain ⟨e, he, hm, heq⟩ := (bc_inv r c p).master hs
  have hlt := hold e he hm
  cases (silent_step r.wf hs (hq.delivered r.wf) ht).1 with
  | idle _ _ _ h3 =>
    exfalso
    simp only at h3
    rcases h3 with h3 | h3
    · rw [h3] at heq; simp at heq
    · exact h3 (BitVec.lt_def.2 (by omega))
  | beat q htx hq => exact ⟨q, htx, Or.inl hq⟩
  | change q hf => exact ⟨q, hf.sent, Or.inr (Or.inl hf)⟩
  | repeats q hf => exact ⟨q, hf.sent, Or.inr (Or.inr hf)⟩

theorem silent_tick {plat s op s'} (wf : s.WF) (hst : Op.step plat op s = .ok s')
    (hq : Entry.IsTick ⟨s, op, s'⟩ ∧ Entry.heard ⟨s, op, s'⟩ = none ∧
      s.getCurrentState = .master) : SilentStep plat op.time ⟨s, op, s'⟩ := by
  obtain ⟨⟨now, rx, hop⟩, hh, hm⟩ := hq
  simp only at hop
  subst hop
  rw [heard_tick wf] at hh
  exact (silent_step wf hm hh hst).1

/-- C40 (at the latest).  Of three consecutive radio ticks within 1000 ms in which a master hears
nothing new, the first more than 2000 ms after its take-over and all its repetitions, one
retransmits the current instruction. -/
theorem repeats_within_three_ticks {plat t₀ h e₁ e₂ e₃ s} (r : Run plat t₀ (e₃ :: e₂ :: e₁ :: h) s)
    (c : Clock t₀ (e₃ :: e₂ :: e₁ :: h)) (p : ProperUse h)
    (hq : ∀ e ∈ [e₁, e₂, e₃], Entry.IsTick e ∧ Entry.heard e = none ∧
      e.pre.getCurrentState = .master)
    (hold : ∀ e ∈ h, Mark e → (Entry.time e).toNat + 2000 < (Entry.time e₁).toNat)
    (hspan : (Entry.time e₃).toNat ≤ (Entry.time e₁).toNat + 1000) :
    ∃ e ∈ [e₁, e₂, e₃], ∃ q, Repeats e q := by
  obtain ⟨r₂, hst₃, heq₃⟩ := r.cons_inv
  obtain ⟨r₁, hst₂, heq₂⟩ := r₂.cons_inv
  obtain ⟨r₀, hst₁, heq₁⟩ := r₁.cons_inv
  obtain ⟨c₂, w₃, _, l₃⟩ := c.cons
  obtain ⟨c₁, w₂, _, l₂⟩ := c₂.cons
  obtain ⟨c₀, w₁, _, l₁⟩ := c₁.cons
  have h12 : (Entry.time e₁).toNat ≤ (Entry.time e₂).toNat := l₂ e₁ List.mem_cons_self
  have h23 : (Entry.time e₂).toNat ≤ (Entry.time e₃).toNat := l₃ e₂ List.mem_cons_self
  have st₁ : SilentStep plat (Entry.time e₁) e₁ := silent_tick r₀.wf hst₁ (hq e₁ (by simp))
  have st₂ : SilentStep plat (Entry.time e₂) e₂ := silent_tick r₁.wf hst₂ (hq e₂ (by simp))
  have st₃ : SilentStep plat (Entry.time e₃) e₃ := silent_tick r₂.wf hst₃ (hq e₃ (by simp))
  obtain ⟨e, he, hm, heq⟩ := (bc_inv r₀ c₀ p).master (hq e₁ (by simp)).2.2
  have hlt := hold e he hm
  have hb0 : e₁.pre.timers.broadcastEffect ≠ 0 := by intro h0; rw [h0] at heq; simp at heq
  have late : ∀ {t : U32} {d : U32}, (Entry.time e₁).toNat ≤ t.toNat → 1000 ≤ d.toNat →
      d.toNat ≤ 255000 → t.toNat + 255000 < 2 ^ 32 → ∀ {u : U32},
      u.toNat ≤ (Entry.time e₁).toNat + 1000 → ¬ t + d < u := by
    intro t d h1 h2 h3 h4 u h5 h6
    rw [BitVec.lt_def, Node.add_toNat h4 h3] at h6
    omega
  have due : ∀ {b t : U32}, b = e₁.pre.timers.broadcastEffect →
      (Entry.time e₁).toNat ≤ t.toNat → ¬ (b = 0 ∨ ¬ b < t) := by
    rintro b t rfl h1 (h2 | h2)
    · exact hb0 h2
    · exact h2 (BitVec.lt_def.2 (by omega))
  cases st₁ with
  | idle _ _ _ h3 => exact absurd h3 (due rfl (Nat.le_refl _))
  | repeats q hf => exact ⟨e₁, by simp, q, hf⟩
  | beat q _ _ hhb hce hbc =>
    rw [heq₁] at hhb hce hbc
    cases st₂ with
    | idle _ _ _ h3 => exact absurd h3 (due hbc h12)
    | repeats q hf => exact ⟨e₂, by simp, q, hf⟩
    | beat q _ _ _ _ _ hd =>
      rw [hhb] at hd
      exact absurd hd.2 (late (Nat.le_refl _) (by decide) (by decide) w₁ (by omega))
    | change q _ hhb' hce' hbc' =>
      rw [heq₂] at hhb' hce' hbc'
      cases st₃ with
      | idle _ _ _ h3 => exact absurd h3 (due (hbc'.trans hbc) (by omega))
      | repeats q hf => exact ⟨e₃, by simp, q, hf⟩
      | beat q _ _ _ _ _ hd =>
        rw [hhb', hhb] at hd
        exact absurd hd.2 (late (Nat.le_refl _) (by decide) (by decide) w₁ hspan)
      | change q _ _ _ _ _ hd =>
        rw [hce'] at hd
        exact absurd hd.2 (late h12 (by decide) (by decide) w₂ hspan)
  | change q _ hhb hce hbc hnd =>
    rw [heq₁] at hhb hce hbc
    cases st₂ with
    | idle _ _ _ h3 => exact absurd h3 (due hbc h12)
    | repeats q hf => exact ⟨e₂, by simp, q, hf⟩
    | change q _ _ _ _ _ hd =>
      rw [hce] at hd
      exact absurd hd.2 (late (Nat.le_refl _) (by decide) (by decide) w₁ (by omega))
    | beat q _ _ hhb' hce' hbc' =>
      rw [heq₂] at hhb' hce' hbc'
      cases st₃ with
      | idle _ _ _ h3 => exact absurd h3 (due (hbc'.trans hbc) (by omega))
      | repeats q hf => exact ⟨e₃, by simp, q, hf⟩
      | beat q _ _ _ _ _ hd =>
        rw [hhb'] at hd
        exact absurd hd.2 (late h12 (by decide) (by decide) w₂ hspan)
      | change q _ _ _ _ _ hd =>
        rw [hce', hce] at hd
        exact absurd hd.2 (late (Nat.le_refl _) (by decide) (by decide) w₁ hspan)

/-- Such a history: take-over at 6000 ms, ticks at 8101 ms (heartbeat), 8102 ms (repetition of the
current instruction) and 8103 ms (nothing due). -/
example : ∃ h e₁ e₂ e₃ s, Run .arduino 0 (e₃ :: e₂ :: e₁ :: h) s ∧
    Clock 0 (e₃ :: e₂ :: e₁ :: h) ∧ ProperUse h ∧
    (∀ e ∈ [e₁, e₂, e₃], Entry.IsTick e ∧ Entry.heard e = none ∧
      e.pre.getCurrentState = .master) ∧
    (∀ e ∈ h, Mark e → (Entry.time e).toNat + 2000 < (Entry.time e₁).toNat) ∧
    (Entry.time e₃).toNat ≤ (Entry.time e₁).toNat + 1000 ∧
    (∃ q, Repeats e₂ q) ∧ ¬ (∃ q, Repeats e₁ q) ∧ ¬ (∃ q, Repeats e₃ q) := by
  obtain ⟨h, s, r, hc⟩ := run_of_check (plat := .arduino) (t₀ := 0) (rand := fun n => n)
    (ops := [.radioTick 6000 none, .radioTick 8101 none, .radioTick 8102 none,
      .radioTick 8103 none])
    (fun h _ => match h with
      | [e₃, e₂, e₁, a] => clockOk ([e₃, e₂, e₁, a].map Entry.time ++ [0]) &&
          decide (Entry.IsTick a) &&
          ([e₁, e₂, e₃].all fun e => decide (Entry.IsTick e) && (Entry.heard e).isNone &&
            decide (e.pre.getCurrentState = .master)) &&
          decide ((Entry.time a).toNat = 6000) && decide ((Entry.time e₁).toNat = 8101) &&
          decide ((Entry.time e₃).toNat = 8103) &&
          repeatsB e₂ && !repeatsB e₁ && !repeatsB e₃
      | _ => false) (by decide +kernel)
  split at hc
  · rename_i e₃ e₂ e₁ a
    simp only [Bool.and_eq_true, decide_eq_true_eq, List.all_eq_true, Bool.not_eq_true'] at hc
    obtain ⟨⟨⟨⟨⟨⟨⟨⟨h1, h2⟩, h3⟩, h4⟩, h5⟩, h6⟩, h7⟩, h8⟩, h9⟩ := hc
    refine ⟨[a], e₁, e₂, e₃, s, r, clock_of_check h1, ?_, ?_, ?_, by omega, repeatsB_iff.1 h7,
      fun h => ?_, fun h => ?_⟩
    · intro e he now p hop
      simp only [List.mem_singleton] at he
      subst he
      obtain ⟨_, _, h⟩ := h2
      rw [hop] at h; cases h
    · intro e he
      obtain ⟨⟨h1, h2⟩, h3⟩ := h3 e he
      exact ⟨h1, by simpa using h2, h3⟩
    · intro e he _
      simp only [List.mem_singleton] at he
      subst he
      omega
    · rw [repeatsB_iff.2 h] at h8; cases h8
    · rw [repeatsB_iff.2 h] at h9; cases h9
  · cases hc

end Firefly.Props
