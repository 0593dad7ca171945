import Verif.Lemmas.ClockedRotation
import Verif.Props.Clocked
import Verif.Props.Repetition

/-! # Rotation and repetition on a clock that advances while the code runs (C162) -/

namespace Firefly.Props
open Spec

theorem paced_step {plat t₀ x h s} (r : PacedRun plat t₀ (x :: h) s) :
    x.entry.post = s ∧ s.WF ∧ InStepR plat x := by
  have wf := r.wf
  obtain ⟨rand, j, j', p⟩ := r
  obtain ⟨_, h2, _, h4, _⟩ := p.cons_inv .init
  exact ⟨h2, wf, h4⟩

/-- C162. A master that chooses a new effect of its own keeps it for 60 s from the beginning of the step,
if undisturbed, and has chosen another soon after 60 s from the end of the step. (A choice that happens to
equal the current instruction cannot be told from a repetition and is not meant.) -/
theorem paced_choice_held {plat t₀ x h s q} (r : PacedRun plat t₀ (x :: h) s)
    (c : Advancing t₀ (x :: h)) (hf : FreshChoice plat x.entry q) (hn : ¬ Repeats x.entry q) :
    PacedHolds plat s (began x + 60000) ∧ PacedChanges plat s (ended x + 60000) := by
  obtain ⟨rfl, wf, i⟩ := paced_step r
  have o := Advancing.cons c
  cases i with
  | keep _ _ _ _ _ _ _ htx =>
    exact absurd (.inl hf.type) (htx q (by rw [hf.sent]; exact List.mem_cons_self))
  | takeOver _ hs => have := hf.master; rw [Node.getCurrentState, hs] at this; cases this
  | locally p now hop => obtain ⟨_, _, ht⟩ := hf.tick; rw [hop] at ht; cases ht
  | slaveHeard p _ _ hh => have := hf.silent; rw [hh] at this; cases this
  | masterHeard p _ _ hh => have := hf.silent; rw [hh] at this; cases this
  | repeats q' hr =>
    have h1 := hr.sent
    rw [hf.sent] at h1
    cases h1
    exact absurd hr hn
  | change _ _ _ _ _ _ hce =>
    have m : x.reads.eventTimer ∈ x.reads.list := by simp [Reads.list]
    have b := o.inside _ m
    have e : x.entry.post.timers.changeEffect.toNat = x.reads.eventTimer.toNat + 60000 := by
      rw [hce]; exact Node.add_toNat (o.bound _ m) (by decide)
    refine ⟨holdsR_of_timer wf ?_, changesR_of_timer wf ?_ ?_⟩
    · rw [e]; simp only [began]; omega
    · intro h0; rw [h0] at e; simp at e
    · rw [e]; simp only [ended]; omega

/-- C162. A master that hears a set-effect or control packet with delay `d` adopts it. If `d` is at least
1 s it keeps it for `d` seconds from the beginning of the step, if undisturbed, and has changed the effect
of its own soon after `d` seconds from the end of the step; if `d` is 0 it never changes it. -/
theorem paced_request_held {plat t₀ x h s p} (r : PacedRun plat t₀ (x :: h) s)
    (c : Advancing t₀ (x :: h)) (hm : x.entry.pre.getCurrentState = .master)
    (hh : Entry.heard x.entry = some p) (hp : IsInstruction p) :
    s.getSetEffect = p ∧
    (1 ≤ requestedDelay p → PacedHolds plat s (began x + 1000 * requestedDelay p) ∧
      PacedChanges plat s (ended x + 1000 * requestedDelay p)) ∧
    (requestedDelay p = 0 → PacedNever plat s) := by
  obtain ⟨rfl, wf, i⟩ := paced_step r
  have o := Advancing.cons c
  cases i with
  | keep hu => exact absurd hp (hu.2 p hh)
  | takeOver _ _ _ h0 => rw [hh] at h0; cases h0
  | locally p' now hop => unfold Entry.heard at hh; rw [hop] at hh; cases hh
  | slaveHeard p' _ _ _ _ hs => rw [Node.getCurrentState, hs] at hm; cases hm
  | change q hf => have := hf.silent; rw [hh] at this; cases this
  | repeats q hf => have := hf.silent; rw [hh] at this; cases this
  | masterHeard p' t ht hh' _ _ _ hc hce =>
    rw [hh] at hh'; cases hh'
    have hr : requestedDelay p = (if p.type = .setEffect then p.data[1] else p.data[0]).toNat := by
      unfold requestedDelay; split <;> rfl
    have b := o.inside _ ht
    refine ⟨hc, fun hd => ?_, fun hd => ?_⟩
    · rw [hr] at hd ⊢
      generalize (if p.type = .setEffect then p.data[1] else p.data[0]) = d at *
      have hne : d ≠ 0 := by rintro rfl; simp at hd
      have e : x.entry.post.timers.changeEffect.toNat = t.toNat + 1000 * d.toNat := by
        rw [hce]; exact (deadline_toNat (o.bound _ ht) hne).2
      refine ⟨holdsR_of_timer wf ?_, changesR_of_timer wf ?_ ?_⟩
      · rw [e]; simp only [began]; omega
      · intro h0; rw [h0] at e; simp at e; omega
      · rw [e]; simp only [ended]; omega
    · rw [hr] at hd
      have h0 : (if p.type = .setEffect then p.data[1] else p.data[0]) = 0 :=
        BitVec.eq_of_toNat_eq hd
      exact neverR_of_timer wf (by rw [hce, h0]; rfl)

/-- C162. A local `SetEffect` with delay `d` is kept for `d` seconds (60 if `d` is 0), if undisturbed, and
a device that is master has changed the effect of its own soon after. -/
theorem paced_local_held {plat t₀ x h s p now} (r : PacedRun plat t₀ (x :: h) s)
    (c : Advancing t₀ (x :: h)) (hop : x.entry.op = .setEffect now p) :
    SameContent s.getSetEffect p ∧
    PacedHolds plat s (now.toNat + 1000 * (if p.data[1] = 0 then 60 else p.data[1].toNat)) ∧
    PacedChanges plat s (now.toNat + 1000 * (if p.data[1] = 0 then 60 else p.data[1].toNat)) := by
  obtain ⟨rfl, wf, i⟩ := paced_step r
  have o := Advancing.cons c
  have nt : ¬ Entry.IsTick x.entry := by rintro ⟨_, _, ht⟩; rw [hop] at ht; cases ht
  have nh : Entry.heard x.entry = none := by unfold Entry.heard; rw [hop]
  cases i with
  | keep hu => exact absurd hop (hu.1 _ _)
  | takeOver hu => exact absurd hop (hu.1 _ _)
  | slaveHeard p' _ _ hh => rw [nh] at hh; cases hh
  | masterHeard p' _ _ hh => rw [nh] at hh; cases hh
  | change q hf => exact absurd hf.tick nt
  | repeats q hf => exact absurd hf.tick nt
  | locally p' now' hop' hr _ hc _ hce =>
    rw [hop] at hop'; cases hop'
    have w := o.bound now (by rw [hr]; simp [Reads.list, Reads.const])
    have e : x.entry.post.timers.changeEffect.toNat =
        now.toNat + 1000 * (if p.data[1] = 0 then 60 else p.data[1].toNat) := by
      rw [hce]
      by_cases h0 : p.data[1] = 0
      · rw [if_pos h0, if_pos h0]; exact Node.add_toNat w (by decide)
      · rw [if_neg h0, if_neg h0]
        have := (deadline_toNat w h0).2
        unfold deadline at this
        rwa [if_neg h0] at this
    refine ⟨hc, holdsR_of_timer wf (by omega), changesR_of_timer wf ?_ (by omega)⟩
    intro h0
    rw [h0] at e
    have h1 : (0 : U32).toNat = 0 := rfl
    rw [h1] at e
    split at e
    · omega
    · rename_i h2
      refine h2 (BitVec.eq_of_toNat_eq ?_)
      have h3 : (0 : U8).toNat = 0 := rfl
      omega

theorem seenR {plat x} (i : InStepR plat x)
    (hsm : ∀ p, Entry.heard x.entry = some p → p.type = .setEffect → p.data[0].toNat < 128) :
    (ChangeSeen x.entry → x.entry.post.effectChangeSeenAt ∈ x.reads.list) ∧
    (¬ ChangeSeen x.entry →
      x.entry.post.effectChangeSeenAt = x.entry.pre.effectChangeSeenAt) := by
  cases i with
  | keep hu _ _ _ _ _ hseen =>
    refine ⟨?_, fun _ => hseen⟩
    rintro ⟨_, p, hh, hp | hp⟩
    · exact absurd (Or.inr hp) (hu.2 p hh)
    · exact absurd (Or.inl hp.1) (hu.2 p hh)
  | takeOver hu _ _ hh _ _ _ _ hseen =>
    refine ⟨?_, fun _ => hseen⟩
    rintro ⟨_, p, hh', _⟩
    rw [hh] at hh'; cases hh'
  | locally p' now hop' _ _ _ _ _ _ hseen =>
    refine ⟨?_, fun _ => hseen⟩
    rintro ⟨_, p, hh', _⟩
    unfold Entry.heard at hh'; rw [hop'] at hh'; cases hh'
  | slaveHeard p t ht hh hp hs _ _ _ hseen =>
    have hiff : ChangeSeen x.entry ↔ (p.type = .setControl ∨
        (p.data[0].toNat : Int) ≠ x.entry.pre.effectIndex.toInt ∨
          p.data[2] ≠ x.entry.pre.setEffectPacket.data[2]) := by
      constructor
      · rintro ⟨_, q, hq, hc⟩
        rw [hh] at hq; cases hq
        rcases hc with hc | ⟨h1, h2⟩
        · exact Or.inl hc
        · rw [small_ne_iff (hsm p hh h1)]
          exact Or.inr h2
      · intro hc
        refine ⟨hs, p, hh, ?_⟩
        rcases hp with hp | hp
        · rw [small_ne_iff (hsm p hh hp)] at hc
          rcases hc with hc | hc
          · exact Or.inl hc
          · exact Or.inr ⟨hp, hc⟩
        · exact Or.inl hp
    rw [hiff, hseen]
    exact ⟨fun h => by rw [if_pos h]; exact ht, fun h => if_neg h⟩
  | masterHeard p _ _ hh _ hs _ _ _ _ hseen =>
    refine ⟨?_, fun _ => hseen⟩
    rintro ⟨hs', _⟩
    rw [Node.getCurrentState, hs] at hs'; cases hs'
  | change q hf _ _ _ _ _ _ hseen =>
    refine ⟨?_, fun _ => hseen⟩
    rintro ⟨_, p, hh', _⟩
    rw [hf.silent] at hh'; cases hh'
  | repeats q hf _ _ _ _ _ _ _ hseen =>
    refine ⟨?_, fun _ => hseen⟩
    rintro ⟨_, p, hh', _⟩
    rw [hf.silent] at hh'; cases hh'

/-- The time of the last change seen that the device remembers lies in the step in which it saw it. -/
theorem last_seenR {plat t₀ lo hi} : ∀ {h s}, PacedRun plat t₀ h s → Advancing t₀ h → SmallEffectsR h →
    LastSeen h lo hi →
    lo ≤ s.effectChangeSeenAt.toNat ∧ s.effectChangeSeenAt.toNat ≤ hi ∧
      ∀ t : U32, (∀ x ∈ h, ended x ≤ t.toNat) → s.effectChangeSeenAt.toNat ≤ t.toNat := by
  intro h
  induction h with
  | nil =>
    intro s r _ _ hl
    obtain ⟨_, _, _, p⟩ := r
    cases p
    rcases hl with ⟨rfl, rfl, _⟩ | ⟨h₁, y, h₂, heq, _⟩
    · exact ⟨Nat.le_refl _, Nat.le_refl _, fun _ _ => Nat.zero_le _⟩
    · cases h₁ <;> cases heq
  | cons x h ih =>
    intro s r c hsm hl
    obtain ⟨rfl, _, i⟩ := paced_step r
    have o := Advancing.cons c
    obtain ⟨k1, k2⟩ := seenR i (hsm x List.mem_cons_self)
    by_cases hx : ChangeSeen x.entry
    · have m := o.inside _ (k1 hx)
      have : lo = began x ∧ hi = ended x := by
        rcases hl with ⟨_, _, hn⟩ | ⟨h₁, y, h₂, heq, _, e1, e2, hn⟩
        · exact absurd hx (hn x List.mem_cons_self)
        · cases h₁ with
          | nil => cases heq; exact ⟨e1, e2⟩
          | cons z h₁ => cases heq; exact absurd hx (hn _ List.mem_cons_self)
      obtain ⟨rfl, rfl⟩ := this
      refine ⟨m.1, m.2, fun t ht => ?_⟩
      have := ht x List.mem_cons_self
      simp only [ended] at this
      omega
    · have hl' : LastSeen h lo hi := by
        rcases hl with ⟨e1, e2, hn⟩ | ⟨h₁, y, h₂, heq, hy, e1, e2, hn⟩
        · exact .inl ⟨e1, e2, fun z hz => hn z (List.mem_cons_of_mem _ hz)⟩
        · cases h₁ with
          | nil => cases heq; exact absurd hy hx
          | cons z h₁ =>
            cases heq
            exact .inr ⟨h₁, y, h₂, rfl, hy, e1, e2, fun w hw => hn w (List.mem_cons_of_mem _ hw)⟩
      rw [k2 hx]
      obtain ⟨a, b, d⟩ := ih r.cons_inv.1 o.rest
        (fun y hy => hsm y (List.mem_cons_of_mem _ hy)) hl'
      exact ⟨a, b, fun t ht => d t fun y hy => ht y (List.mem_cons_of_mem _ hy)⟩

theorem rest_zero {v rest : U32} (h : v.toNat ≤ rest.toNat) :
    kChangeEffectInterval - (rest - v) = 0 ↔ rest.toNat = v.toNat + 60000 := by
  have h6 : kChangeEffectInterval.toNat = 60000 := rfl
  have h0 : (0 : U32).toNat = 0 := rfl
  have := rest.isLt
  have hs : (rest - v).toNat = rest.toNat - v.toNat := by rw [BitVec.toNat_sub]; omega
  rw [← BitVec.toNat_inj, BitVec.toNat_sub, hs, h6, h0]
  omega

theorem rest_timer {v rest ct : U32} (h : v.toNat ≤ rest.toNat) (h' : rest.toNat ≤ ct.toNat)
    (w : ct.toNat + 255000 < 2 ^ 32) :
    (ct + (kChangeEffectInterval - (rest - v))).toNat = v.toNat + 60000 + (ct.toNat - rest.toNat) := by
  have h6 : kChangeEffectInterval.toNat = 60000 := rfl
  have hs : (rest - v).toNat = rest.toNat - v.toNat := by
    rw [BitVec.toNat_sub]; have := rest.isLt; omega
  rw [BitVec.toNat_add, BitVec.toNat_sub, hs, h6]
  omega

/-- C162. A device takes over in a step; it saw the last change as slave between `lo` and `hi`. If that was
more than 60 s before the step began, it rotates at once. If it was less than 60 s before the step ended, it
rotates 60 s after the change, later at most by the duration of the step. In any case it rotates by the
later of the two deadlines, unless the mark of 60 s falls into the step; it may then never rotate. -/
theorem paced_takeover_cadence {plat t₀ x h s lo hi} (r : PacedRun plat t₀ (x :: h) s)
    (c : Advancing t₀ (x :: h)) (hsm : SmallEffectsR h) (hp : Entry.Promoted x.entry)
    (hl : LastSeen h lo hi) :
    (hi + 60000 < began x → PacedHolds plat s (began x + 1) ∧ PacedChanges plat s (ended x + 1)) ∧
    (ended x < lo + 60000 → PacedHolds plat s (lo + 60000) ∧
      PacedChanges plat s (hi + 60000 + (ended x - began x))) ∧
    (PacedChanges plat s (max (ended x + 1) (hi + 60000 + (ended x - began x))) ∨
      (PacedNever plat s ∧ lo + 60000 ≤ ended x ∧ began x ≤ hi + 60000)) := by
  have o := Advancing.cons c
  obtain ⟨v1, v2, v3⟩ := last_seenR r.cons_inv.1 o.rest hsm hl
  obtain ⟨rfl, wf, i⟩ := paced_step r
  have h1 := hp.1
  have h2 := hp.2
  rw [Node.getCurrentState] at h1 h2
  cases i with
  | keep _ hst =>
    rcases hst with h | ⟨h, _⟩
    · rw [h, h1] at h2; cases h2
    · rw [h1] at h; cases h
  | locally _ _ _ _ h => rw [h, h1] at h2; cases h2
  | slaveHeard _ _ _ _ _ _ h => rw [h] at h2; cases h2
  | masterHeard _ _ _ _ _ hs => rw [h1] at hs; cases hs
  | change _ _ hs => rw [h1] at hs; cases hs
  | repeats _ _ _ hs => rw [h1] at hs; cases hs
  | takeOver _ _ _ _ _ _ hce =>
    generalize x.entry.pre.effectChangeSeenAt = v at *
    have v3 := v3 x.reads.first o.before
    have mt : x.reads.test ∈ x.reads.list := by simp [Reads.list]
    have mr : x.reads.rest ∈ x.reads.list := by simp [Reads.list]
    have mc : x.reads.changeTimer ∈ x.reads.list := by simp [Reads.list]
    have bt := o.inside _ mt
    have br := o.inside _ mr
    have bc := o.inside _ mc
    have w := o.bound _ mc
    have hb : began x = x.reads.first.toNat := rfl
    have he : ended x = x.reads.changeTimer.toNat := rfl
    have hlt : kChangeEffectInterval < x.reads.test - v ↔ v.toNat + 60000 < x.reads.test.toNat := by
      have h6 : kChangeEffectInterval.toNat = 60000 := rfl
      rw [BitVec.lt_def, BitVec.toNat_sub, h6]
      have := x.reads.test.isLt
      omega
    have hz := rest_zero (v := v) (rest := x.reads.rest) (by omega)
    by_cases k1 : v.toNat + 60000 < x.reads.test.toNat
    · rw [if_pos (hlt.2 k1)] at hce
      have e : x.entry.post.timers.changeEffect.toNat = x.reads.changeTimer.toNat + 1 := by
        rw [hce]; exact Node.add_toNat w (by decide)
      have hne : x.entry.post.timers.changeEffect ≠ 0 := by
        intro h0; rw [h0] at e; simp at e
      refine ⟨fun _ => ⟨holdsR_of_timer wf (by omega), changesR_of_timer wf hne (by omega)⟩,
        fun _ => by omega, .inl (changesR_of_timer wf hne (by omega))⟩
    · rw [if_neg fun h => k1 (hlt.1 h)] at hce
      by_cases k2 : x.reads.rest.toNat = v.toNat + 60000
      · rw [if_pos (hz.2 k2)] at hce
        exact ⟨fun _ => by omega, fun _ => by omega,
          .inr ⟨neverR_of_timer wf hce, by omega, by omega⟩⟩
      · rw [if_neg fun h => k2 (hz.1 h)] at hce
        have e : x.entry.post.timers.changeEffect.toNat =
            v.toNat + 60000 + (x.reads.changeTimer.toNat - x.reads.rest.toNat) := by
          rw [hce]; exact rest_timer (by omega) br.2 w
        have hne : x.entry.post.timers.changeEffect ≠ 0 := by
          intro h0; rw [h0] at e; simp at e; omega
        exact ⟨fun _ => by omega,
          fun _ => ⟨holdsR_of_timer wf (by omega), changesR_of_timer wf hne (by omega)⟩,
          .inl (changesR_of_timer wf hne (by omega))⟩

/-! ### Repetition -/

/-- What holds of the repetition timer after every history. -/
structure BcInvR (plat : Platform) (h : List Timed) (s : Node) : Prop where
  master : s.state = .master → ∃ x ∈ h, Mark x.entry ∧ s.timers.broadcastEffect ≠ 0 ∧
    s.timers.broadcastEffect.toNat ≤ ended x + 2000
  later : ∀ x ∈ h, PlainRepeat plat x.entry → began x + 2000 ≤ s.timers.broadcastEffect.toNat
  apart : h.Pairwise fun x y => PlainRepeat plat x.entry → PlainRepeat plat y.entry →
    began y + 2000 < ended x

theorem bc_invR {plat t₀ h} : ∀ {s}, PacedRun plat t₀ h s → Advancing t₀ h →
    ProperUse (h.map Timed.entry) → BcInvR plat h s := by
  induction h with
  | nil =>
    rintro s ⟨_, _, _, p⟩ _ _
    cases p
    refine ⟨fun h => ?_, fun e he => ?_, List.Pairwise.nil⟩
    · cases h
    · cases he
  | cons x h ih =>
    intro s r c p
    have o := Advancing.cons c
    obtain ⟨r', _⟩ := r.cons_inv
    have inv := ih r' o.rest (ProperUse.cons p).1
    have hins : IsInstruction x.entry.pre.setEffectPacket := by
      obtain ⟨_, _, _, r'⟩ := r'
      exact r'.instruction (ProperUse.cons p).1
    obtain ⟨rfl, _, i⟩ := paced_step r
    have same : ¬ PlainRepeat plat x.entry →
        (x.entry.post.state = .master → x.entry.pre.state = .master) →
        x.entry.post.timers.broadcastEffect = x.entry.pre.timers.broadcastEffect →
        BcInvR plat (x :: h) x.entry.post := by
      intro hn hm hbc
      refine ⟨fun hs => ?_, fun e' he' hr => ?_, ?_⟩
      · obtain ⟨e', he', h1, h2⟩ := inv.master (hm hs)
        exact ⟨e', List.mem_cons_of_mem _ he', h1, by rw [hbc]; exact h2⟩
      · rw [hbc]
        rcases List.mem_cons.1 he' with rfl | he'
        · exact absurd hr hn
        · exact inv.later e' he' hr
      · exact List.pairwise_cons.2 ⟨fun e' _ h1 => absurd h1 hn, inv.apart⟩
    have rearm : ∀ t ∈ x.reads.list, Mark x.entry → x.entry.post.timers.broadcastEffect = t + 2000 →
        (PlainRepeat plat x.entry → x.entry.pre.timers.broadcastEffect < x.reads.broadcast) →
        BcInvR plat (x :: h) x.entry.post := by
      intro t ht hm hbc hd
      have hn : x.entry.post.timers.broadcastEffect.toNat = t.toNat + 2000 := by
        rw [hbc]; exact Node.add_toNat (o.bound _ ht) (by decide)
      have b := o.inside _ ht
      refine ⟨fun hs => ⟨_, List.mem_cons_self, hm, ?_, ?_⟩, fun e' he' hr => ?_, ?_⟩
      · intro h0; rw [h0] at hn; simp at hn
      · rw [hn]; simp only [ended]; omega
      · rw [hn]
        rcases List.mem_cons.1 he' with rfl | he'
        · simp only [began]; omega
        · have := o.before' e' he'
          omega
      · refine List.pairwise_cons.2 ⟨fun e' he' h1 h2 => ?_, inv.apart⟩
        have h3 := inv.later e' he' h2
        have h4 := BitVec.lt_def.1 (hd h1)
        have h5 := (o.inside x.reads.broadcast (by simp [Reads.list])).2
        simp only [ended]
        omega
    have quiet : ∀ {q}, Entry.heard x.entry = some q → ¬ PlainRepeat plat x.entry := by
      rintro q hq ⟨_, hr, _⟩
      rw [hr.silent] at hq; cases hq
    cases i with
    | keep hu hs _ _ _ hbc _ htx =>
      refine same ?_ ?_ hbc
      · rintro ⟨q, hr, _⟩
        refine htx q (by rw [hr.sent]; exact List.mem_cons_self) ?_
        have := hr.same.1
        simp only [Node.getSetEffect] at this
        unfold IsInstruction at hins ⊢
        rw [this]; exact hins
      · intro h1
        rcases hs with hs | ⟨_, hs⟩
        · rw [← hs]; exact h1
        · rw [h1] at hs; cases hs
    | takeOver _ hs hs' _ _ _ _ hbc =>
      refine rearm _ (by simp [Reads.list]) (Or.inl ⟨hs, hs'⟩) hbc ?_
      rintro ⟨q, hr, _⟩
      have := hr.master
      simp only [Node.getCurrentState] at this
      rw [hs] at this; cases this
    | locally p' now hop _ hs _ _ _ hbc =>
      refine same ?_ (fun h1 => by rw [← hs]; exact h1) hbc
      rintro ⟨q, hr, _⟩
      obtain ⟨_, rx, ht⟩ := hr.tick
      rw [ht] at hop; cases hop
    | slaveHeard p' _ _ hh _ hs hs' _ hbc =>
      exact same (quiet hh) (fun h1 => by rw [hs'] at h1; cases h1) hbc
    | masterHeard p' _ _ hh _ hs _ _ _ hbc => exact same (quiet hh) (fun _ => hs) hbc
    | change q hf hs _ _ _ _ hbc =>
      refine same ?_ (fun _ => hs) hbc
      rintro ⟨q', hr, hn⟩
      have h1 := hr.sent
      rw [hf.sent] at h1
      cases h1
      exact hn hf
    | repeats q hf _ _ _ _ hd _ hbc =>
      exact rearm _ (by simp [Reads.list]) (Or.inr ⟨q, hf⟩) hbc fun _ => hd

/-- C162. Of two repetitions of the current instruction the later ends more than 2000 ms after the earlier
began. -/
theorem paced_repetitions_apart {plat t₀ h s} (r : PacedRun plat t₀ h s) (c : Advancing t₀ h)
    (p : ProperUse (h.map Timed.entry)) {h₁ x h₂ y} (heq : h = h₁ ++ x :: h₂) (hy : y ∈ h₂)
    (hr : PlainRepeat plat x.entry) (hr' : PlainRepeat plat y.entry) : began y + 2000 < ended x := by
  have := (bc_invR r c p).apart
  rw [heq, List.pairwise_append] at this
  exact (List.pairwise_cons.1 this.2.1).1 y hy hr hr'

/-- C162. A master whose take-over and repetitions all ended more than 2000 ms before a radio tick begins in
which it hears nothing new sends exactly one packet in it: its heartbeat, a fresh choice of effect, or, if it
does neither of these, the current instruction. -/
theorem paced_repetition_due {plat t₀ x h s} (r : PacedRun plat t₀ (x :: h) s)
    (c : Advancing t₀ (x :: h)) (p : ProperUse ((x :: h).map Timed.entry))
    (ht : Entry.IsTick x.entry) (hq : Entry.heard x.entry = none)
    (hm : x.entry.pre.getCurrentState = .master)
    (hold : ∀ y ∈ h, Mark y.entry → ended y + 2000 < began x) :
    ∃ q, Entry.transmitted x.entry = [q] ∧
      (q.type = .heartbeat ∨ FreshChoice plat x.entry q ∨ Repeats x.entry q) := by
  have o := Advancing.cons c
  obtain ⟨y, hy, hm', h0, hle⟩ := (bc_invR r.cons_inv.1 o.rest (ProperUse.cons p).1).master hm
  have hlt := hold y hy hm'
  obtain ⟨_, _, _, r'⟩ := r
  cases silentR' r' .init ⟨ht, hq, hm⟩ with
  | idle _ _ h3 =>
    exfalso
    rcases h3 with h3 | h3
    · exact h0 h3
    · have := (o.inside x.reads.broadcast (by simp [Reads.list])).1
      simp only [began] at hlt
      exact h3 (BitVec.lt_def.2 (by omega))
  | beat q htx hq => exact ⟨q, htx, Or.inl hq⟩
  | change q hf => exact ⟨q, hf.sent, Or.inr (Or.inl hf)⟩
  | repeats q hf => exact ⟨q, hf.sent, Or.inr (Or.inr hf)⟩

end Firefly.Props
