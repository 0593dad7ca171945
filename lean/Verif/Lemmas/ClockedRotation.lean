import Verif.Spec.ClockedRotation
import Verif.Lemmas.Clocked
import Verif.Lemmas.Rotation

/-! # The rotation and repetition timers on a clock that advances -/

set_option linter.unusedSimpArgs false

namespace Firefly
open Spec

/-- What one step does, as far as instructions are concerned. -/
inductive InStepR (plat : Platform) (x : Timed) : Prop
  | keep (hu : Untold x.entry)
      (hst : x.entry.post.state = x.entry.pre.state ∨
        (x.entry.pre.state = .master ∧ x.entry.post.state = .slave))
      (hc : x.entry.post.setEffectPacket = x.entry.pre.setEffectPacket)
      (hi : x.entry.post.effectIndex = x.entry.pre.effectIndex)
      (hce : x.entry.post.timers.changeEffect = x.entry.pre.timers.changeEffect)
      (hbc : x.entry.post.timers.broadcastEffect = x.entry.pre.timers.broadcastEffect)
      (hseen : x.entry.post.effectChangeSeenAt = x.entry.pre.effectChangeSeenAt)
      (htx : ∀ q ∈ Entry.transmitted x.entry, ¬ IsInstruction q)
  | takeOver (hu : Untold x.entry) (hs : x.entry.pre.state = .slave) (hs' : x.entry.post.state = .master)
      (hh : Entry.heard x.entry = none)
      (hc : x.entry.post.setEffectPacket = x.entry.pre.setEffectPacket)
      (hi : x.entry.post.effectIndex = x.entry.pre.effectIndex)
      (hce : x.entry.post.timers.changeEffect =
        if kChangeEffectInterval < x.reads.test - x.entry.pre.effectChangeSeenAt then
          x.reads.changeTimer + 1
        else if kChangeEffectInterval - (x.reads.rest - x.entry.pre.effectChangeSeenAt) = 0 then 0
        else x.reads.changeTimer +
          (kChangeEffectInterval - (x.reads.rest - x.entry.pre.effectChangeSeenAt)))
      (hbc : x.entry.post.timers.broadcastEffect = x.reads.broadcastTimer + 2000)
      (hseen : x.entry.post.effectChangeSeenAt = x.entry.pre.effectChangeSeenAt)
      (htx : ∀ q ∈ Entry.transmitted x.entry, ¬ IsInstruction q)
  | locally (p : Packet) (now : U32) (hop : x.entry.op = .setEffect now p) (hr : x.reads = .const now)
      (hst : x.entry.post.state = x.entry.pre.state)
      (hc : SameContent x.entry.post.setEffectPacket p) (hi : x.entry.post.effectIndex = p.data[0])
      (hce : x.entry.post.timers.changeEffect = now +
        (if p.data[1] = 0 then (60000 : U32) else p.data[1].setWidth 32 * 1000))
      (hbc : x.entry.post.timers.broadcastEffect = x.entry.pre.timers.broadcastEffect)
      (hseen : x.entry.post.effectChangeSeenAt = x.entry.pre.effectChangeSeenAt)
  | slaveHeard (p : Packet) (t : U32) (ht : t ∈ x.reads.list) (hh : Entry.heard x.entry = some p)
      (hp : IsInstruction p) (hs : x.entry.pre.state = .slave) (hs' : x.entry.post.state = .slave)
      (hce : x.entry.post.timers.changeEffect = x.entry.pre.timers.changeEffect)
      (hbc : x.entry.post.timers.broadcastEffect = x.entry.pre.timers.broadcastEffect)
      (hseen : x.entry.post.effectChangeSeenAt =
        if p.type = .setControl ∨ (p.data[0].toNat : Int) ≠ x.entry.pre.effectIndex.toInt ∨
          p.data[2] ≠ x.entry.pre.setEffectPacket.data[2] then t else x.entry.pre.effectChangeSeenAt)
  | masterHeard (p : Packet) (t : U32) (ht : t ∈ x.reads.list) (hh : Entry.heard x.entry = some p)
      (hp : IsInstruction p) (hs : x.entry.pre.state = .master) (hs' : x.entry.post.state = .master)
      (hc : x.entry.post.setEffectPacket = p)
      (hce : x.entry.post.timers.changeEffect =
        deadline t (if p.type = .setEffect then p.data[1] else p.data[0]))
      (hbc : x.entry.post.timers.broadcastEffect = x.entry.pre.timers.broadcastEffect)
      (hseen : x.entry.post.effectChangeSeenAt = x.entry.pre.effectChangeSeenAt)
  | change (q : Packet) (hf : FreshChoice plat x.entry q)
      (hs : x.entry.pre.state = .master) (hs' : x.entry.post.state = .master)
      (h0 : x.entry.pre.timers.changeEffect ≠ 0)
      (h1 : x.entry.pre.timers.changeEffect < x.reads.change)
      (hce : x.entry.post.timers.changeEffect = x.reads.eventTimer + 60000)
      (hbc : x.entry.post.timers.broadcastEffect = x.entry.pre.timers.broadcastEffect)
      (hseen : x.entry.post.effectChangeSeenAt = x.entry.pre.effectChangeSeenAt)
  | repeats (q : Packet) (hf : Repeats x.entry q) (hq : x.entry.post.setEffectPacket = q)
      (hs : x.entry.pre.state = .master) (hs' : x.entry.post.state = .master)
      (h0 : x.entry.pre.timers.broadcastEffect ≠ 0)
      (h1 : x.entry.pre.timers.broadcastEffect < x.reads.broadcast)
      (hce : x.entry.post.timers.changeEffect = x.entry.pre.timers.changeEffect)
      (hbc : x.entry.post.timers.broadcastEffect = x.reads.eventTimer + 2000)
      (hseen : x.entry.post.effectChangeSeenAt = x.entry.pre.effectChangeSeenAt)

/-- What `TimerExpired` tells about the timers. -/
theorem timerExpiredR_due {r} {s : Node} (wf : s.WF) : ∀ t, s.timerExpiredR r = t →
    (t = .none → (s.timers.heartbeat = 0 ∨ ¬ s.timers.heartbeat < r.first) ∧
      (s.timers.changeEffect = 0 ∨ ¬ s.timers.changeEffect < r.change) ∧
      (s.timers.broadcastEffect = 0 ∨ ¬ s.timers.broadcastEffect < r.broadcast)) ∧
    (t = .heartbeat → s.timers.heartbeat ≠ 0 ∧ s.timers.heartbeat < r.first) ∧
    (t = .changeEffect → s.timers.changeEffect ≠ 0 ∧ s.timers.changeEffect < r.change) ∧
    (t = .broadcastEffect → (s.timers.changeEffect = 0 ∨ ¬ s.timers.changeEffect < r.change) ∧
      s.timers.broadcastEffect ≠ 0 ∧ s.timers.broadcastEffect < r.broadcast) := by
  rintro t rfl
  unfold Node.timerExpiredR
  rw [if_neg (by simp [wf.timerNone])]
  by_cases h1 : s.timers.heartbeat ≠ 0 ∧ s.timers.heartbeat < r.first
  · rw [if_pos h1]; exact ⟨nofun, fun _ => h1, nofun, nofun⟩
  · rw [if_neg h1]
    by_cases h2 : s.timers.changeEffect ≠ 0 ∧ s.timers.changeEffect < r.change
    · rw [if_pos h2]; exact ⟨nofun, nofun, fun _ => h2, nofun⟩
    · rw [if_neg h2]
      by_cases h3 : s.timers.broadcastEffect ≠ 0 ∧ s.timers.broadcastEffect < r.broadcast
      · rw [if_pos h3]; exact ⟨nofun, nofun, nofun, fun _ => ⟨not_due h2, h3⟩⟩
      · rw [if_neg h3]
        exact ⟨fun _ => ⟨not_due h1, not_due h2, not_due h3⟩, nofun, nofun, nofun⟩

theorem freshChoice_tick {plat now rx e pal r₁ r₂ u} {s : Node} (wf : s.WF)
    (hd : s.delivered rx = none) (hs : s.state = .master)
    (he : randomRange plat 0 (s.numEffects.setWidth 16) s.rand = .ok (e, r₁))
    (hp : randomRange plat 0 (s.numPalettes.setWidth 16) r₁ = .ok (pal, r₂)) :
    FreshChoice plat ⟨s, .radioTick now rx, Node.afterChange plat u e pal r₂ s⟩
      { s.packet.writeSetEffect (e.setWidth 8) 0 (pal.setWidth 8) with id := sendId plat r₂ } := by
  refine ⟨⟨_, _, rfl⟩, hs, by rw [heard_tick wf, hd], by simp [Entry.transmitted], rfl, rfl, ?_,
    ⟨e, pal, r₁, r₂, he, hp, ?_, ?_⟩, ?_, ?_⟩ <;>
    simp [Packet.writeSetEffect, SameContent, Node.getSetEffect, Node.getEffectIndex]

theorem in_tickR {plat r rx} {s s' : Node} (wf : s.WF) (h : s.radioTickR plat r rx = .ok s') :
    InStepR plat ⟨⟨s, .radioTick r.first rx, s'⟩, r⟩ := by
  have hh := fun x => heard_tick (s' := x) (now := r.first) (rx := rx) wf
  cases Node.radioTickR_cases wf h with
  | quiet hd ht =>
    refine .keep ?_ ?_ ?_ ?_ ?_ ?_ ?_ ?_ <;>
      simp [Untold, hh, hd, Entry.transmitted, IsInstruction]
  | takeOver hd hs ht =>
    refine .takeOver ?_ hs rfl ?_ ?_ ?_ rfl ?_ ?_ ?_ <;>
      simp [Untold, hh, hd, Entry.transmitted, IsInstruction, Packet.writeHeartbeat,
        kBroadcastEffectInterval, Node.afterBeginMasterR]
  | beat hd hs ht =>
    refine .keep ?_ ?_ ?_ ?_ ?_ ?_ ?_ ?_ <;>
      simp [Untold, hh, hd, Entry.transmitted, IsInstruction, Packet.writeHeartbeat]
  | change hd hs ht e pal r₁ r₂ he hp =>
    obtain ⟨_, _, k, _⟩ := timerExpiredR_due wf _ ht
    refine .change _ (freshChoice_tick wf hd hs he hp) hs hs (k rfl).1 (k rfl).2 ?_ ?_ ?_ <;>
      simp [kChangeEffectInterval]
  | «repeat» hd hs ht =>
    obtain ⟨_, _, _, k⟩ := timerExpiredR_due wf _ ht
    refine .repeats (Node.stamped plat s.setEffectPacket s) ?_ rfl hs hs
      (k rfl).2.1 (k rfl).2.2 ?_ ?_ ?_
    · refine ⟨⟨_, _, rfl⟩, hs, by rw [hh, hd], by simp [Entry.transmitted], ?_, ?_, ?_⟩ <;>
        simp [SameContent, Node.getSetEffect, Node.getEffectIndex]
    all_goals simp [kBroadcastEffectInterval]
  | heartbeat p hd hs hp =>
    refine .keep ?_ ?_ ?_ ?_ ?_ ?_ ?_ ?_ <;>
      simp [Untold, hh, hd, hp, Entry.transmitted, IsInstruction]
  | packet p t _ hd hs ht hc =>
    have ht' : t ∈ r.list := by rcases ht with rfl | rfl | rfl <;> simp [Reads.list]
    have hd' : Entry.heard ⟨s, .radioTick t rx, s'⟩ = some p := by rw [heard_tick wf, hd]
    cases in_step (op := .radioTick t rx) wf hc with
    | keep hu hst hc hi hce hbc hseen htx =>
      exact .keep ⟨by simp, hu.2⟩ hst hc hi hce hbc hseen htx
    | takeOver _ _ _ h0 => rw [hd'] at h0; cases h0
    | locally p hop => cases hop
    | slaveHeard p hh hp hs hs' _ _ hce hbc hseen =>
      exact .slaveHeard p t ht' hh hp hs hs' hce hbc hseen
    | masterHeard p hh hp hs hs' hc _ hce hbc hseen =>
      exact .masterHeard p t ht' hh hp hs hs' hc hce hbc hseen
    | change q hf => have := hf.silent; rw [hd'] at this; cases this
    | repeats q hf => have := hf.silent; rw [hd'] at this; cases this

theorem in_callR {plat op} {s s' : Node} (wf : s.WF) (hn : ∀ now rx, op ≠ .radioTick now rx)
    (h : Op.step plat op s = .ok s') : InStepR plat ⟨⟨s, op, s'⟩, .const op.time⟩ := by
  have hd : Entry.heard ⟨s, op, s'⟩ = none := by
    cases op <;> first | rfl | exact absurd rfl (hn _ _)
  cases in_step wf h with
  | keep hu hst hc hi hce hbc hseen htx => exact .keep hu hst hc hi hce hbc hseen htx
  | takeOver hu hs hs' =>
    exfalso
    cases op with
    | radioTick => exact hn _ _ rfl
    | setEffect now p => exact hu.1 _ _ rfl
    | setNumPalettes => cases h; exact absurd (hs.symm.trans hs') (by decide)
    | setNumEffects => cases h; exact absurd (hs.symm.trans hs') (by decide)
    | endTick => cases h; exact absurd (hs.symm.trans hs') (by decide)
  | locally p hop hst hc hi hce hbc hseen =>
    exact .locally p op.time hop rfl hst hc hi hce hbc hseen
  | slaveHeard p hh => rw [hd] at hh; cases hh
  | masterHeard p hh => rw [hd] at hh; cases hh
  | change q hf => obtain ⟨_, _, ht⟩ := hf.tick; exact absurd ht (hn _ _)
  | repeats q hf => obtain ⟨_, _, ht⟩ := hf.tick; exact absurd ht (hn _ _)

/-- A step of an execution, taken apart. -/
theorem Paced.cons_inv {plat s₀ x h s} (r : Paced plat s₀ (x :: h) s) (wf : s₀.WF) :
    Paced plat s₀ h x.entry.pre ∧ x.entry.post = s ∧ x.entry.pre.WF ∧ InStepR plat x ∧
    (Entry.IsTick x.entry → ∃ rx, x.entry.op = .radioTick x.reads.first rx ∧
      x.entry.pre.radioTickR plat x.reads rx = .ok x.entry.post) := by
  cases r with
  | tick r rx hx hst =>
    exact ⟨hx, rfl, hx.wf wf, in_tickR (hx.wf wf) hst, fun _ => ⟨rx, rfl, hst⟩⟩
  | call op hx hn hst =>
    exact ⟨hx, rfl, hx.wf wf, in_callR (hx.wf wf) hn hst, fun ⟨_, _, h⟩ => absurd h (hn _ _)⟩

theorem undisturbedR {plat x} (i : InStepR plat x) (hu : Undisturbed x.entry) :
    (x.entry.post.timers.changeEffect = x.entry.pre.timers.changeEffect ∧
      SameContent x.entry.post.setEffectPacket x.entry.pre.setEffectPacket ∧
      x.entry.post.effectIndex = x.entry.pre.effectIndex) ∨
    ((∃ q, FreshChoice plat x.entry q) ∧ x.entry.pre.timers.changeEffect ≠ 0 ∧
      x.entry.pre.timers.changeEffect < x.reads.change) := by
  cases i with
  | keep _ _ hc hi hce => exact .inl ⟨hce, hc ▸ .refl, hi⟩
  | takeOver _ hs hs' => exact absurd ⟨hs, hs'⟩ hu.2
  | locally p now hop => exact absurd hop (hu.1.1 _ _)
  | slaveHeard p _ _ hh hp => exact absurd hp (hu.1.2 p hh)
  | masterHeard p _ _ hh hp => exact absurd hp (hu.1.2 p hh)
  | change q hf _ _ h0 h1 => exact .inr ⟨⟨q, hf⟩, h0, h1⟩
  | repeats q hf _ _ _ _ _ hce => exact .inl ⟨hce, hf.kept, hf.index⟩

theorem holdR {plat s h} (wf : s.WF) : ∀ {s'}, Paced plat s h s' →
    (∀ x ∈ h, Undisturbed x.entry ∧
      (s.timers.changeEffect = 0 ∨ x.reads.change.toNat ≤ s.timers.changeEffect.toNat)) →
    s'.timers.changeEffect = s.timers.changeEffect ∧
      SameContent s'.setEffectPacket s.setEffectPacket ∧ s'.effectIndex = s.effectIndex := by
  induction h with
  | nil => intro s' p _; cases p; exact ⟨rfl, .refl, rfl⟩
  | cons x h ih =>
    intro s' p hu
    obtain ⟨p', rfl, _, i, _⟩ := p.cons_inv wf
    obtain ⟨i1, i2, i3⟩ := ih p' fun e he => hu e (List.mem_cons_of_mem _ he)
    obtain ⟨u1, u2⟩ := hu _ List.mem_cons_self
    rcases undisturbedR i u1 with ⟨h1, h2, h3⟩ | ⟨_, h0, h1⟩
    · exact ⟨h1.trans i1, h2.trans i2, h3.trans i3⟩
    · rw [i1] at h0 h1
      rcases u2 with u2 | u2
      · exact absurd u2 h0
      · have := BitVec.lt_def.1 h1
        omega

theorem pendingR {plat s h} (wf : s.WF) : ∀ {s'}, Paced plat s h s' →
    (∀ x ∈ h, Undisturbed x.entry) →
    s'.timers.changeEffect = s.timers.changeEffect ∨ ∃ x ∈ h, ∃ q, FreshChoice plat x.entry q := by
  induction h with
  | nil => intro s' p _; cases p; exact .inl rfl
  | cons x h ih =>
    intro s' p hu
    obtain ⟨p', rfl, _, i, _⟩ := p.cons_inv wf
    rcases ih p' fun e he => hu e (List.mem_cons_of_mem _ he) with j | ⟨e, he, hq⟩
    · rcases undisturbedR i (hu _ List.mem_cons_self) with ⟨h1, _⟩ | ⟨h1, _⟩
      · exact .inl (h1.trans j)
      · exact .inr ⟨_, List.mem_cons_self, h1⟩
    · exact .inr ⟨e, List.mem_cons_of_mem _ he, hq⟩

/-- What a silent tick of a master does. -/
inductive SilentR (plat : Platform) (x : Timed) : Prop
  | idle (hpost : x.entry.post = x.entry.pre)
      (h2 : x.entry.pre.timers.changeEffect = 0 ∨ ¬ x.entry.pre.timers.changeEffect < x.reads.change)
      (h3 : x.entry.pre.timers.broadcastEffect = 0 ∨
        ¬ x.entry.pre.timers.broadcastEffect < x.reads.broadcast)
  | beat (q : Packet) (htx : Entry.transmitted x.entry = [q]) (hq : q.type = .heartbeat)
      (hhb : x.entry.post.timers.heartbeat = x.reads.eventTimer + 1000)
      (hce : x.entry.post.timers.changeEffect = x.entry.pre.timers.changeEffect)
      (hbc : x.entry.post.timers.broadcastEffect = x.entry.pre.timers.broadcastEffect)
      (hd : x.entry.pre.timers.heartbeat < x.reads.first)
  | change (q : Packet) (hf : FreshChoice plat x.entry q)
  | repeats (q : Packet) (hf : Repeats x.entry q)
      (hnd' : x.entry.pre.timers.changeEffect = 0 ∨
        ¬ x.entry.pre.timers.changeEffect < x.reads.change)

theorem silentR {plat r rx} {s s' : Node} (wf : s.WF) (hs : s.state = .master)
    (hq : s.delivered rx = none) (h : s.radioTickR plat r rx = .ok s') :
    SilentR plat ⟨⟨s, .radioTick r.first rx, s'⟩, r⟩ := by
  cases Node.radioTickR_cases wf h with
  | quiet hd ht =>
    rcases ht with ⟨h1, _⟩ | ⟨_, ht⟩
    · rw [hs] at h1; cases h1
    · obtain ⟨k, _⟩ := timerExpiredR_due wf _ ht
      exact .idle rfl (k rfl).2.1 (k rfl).2.2
  | takeOver _ h1 => rw [hs] at h1; cases h1
  | beat _ _ ht =>
    obtain ⟨_, k, _⟩ := timerExpiredR_due wf _ ht
    exact .beat (Node.stamped plat (s.packet.writeHeartbeat (s.getNetworkMillis r.event)) s)
      (by simp [Entry.transmitted]) rfl (by simp [kMasterHeartbeatInterval]) (by simp)
      (by simp) (k rfl).2
  | change hd _ _ e pal r₁ r₂ he hp => exact .change _ (freshChoice_tick wf hd hs he hp)
  | «repeat» hd _ ht =>
    obtain ⟨_, _, _, k⟩ := timerExpiredR_due wf _ ht
    refine .repeats (Node.stamped plat s.setEffectPacket s) ?_ (k rfl).1
    refine ⟨⟨_, _, rfl⟩, hs, by rw [heard_tick wf, hd], by simp [Entry.transmitted], ?_, ?_, ?_⟩ <;>
      simp [SameContent, Node.getSetEffect, Node.getEffectIndex]
  | heartbeat p hd => rw [hq] at hd; cases hd
  | packet p t _ hd => rw [hq] at hd; cases hd

theorem silentR' {plat s₀ x h s} (p : Paced plat s₀ (x :: h) s) (wf : s₀.WF)
    (hq : Entry.IsTick x.entry ∧ Entry.heard x.entry = none ∧
      x.entry.pre.getCurrentState = .master) : SilentR plat x := by
  obtain ⟨ht, hh, hm⟩ := hq
  obtain ⟨_, _, wf', _, k⟩ := p.cons_inv wf
  obtain ⟨rx, hop, hst⟩ := k ht
  obtain ⟨⟨pre, op, post⟩, r⟩ := x
  simp only at hop hst hm hh wf'
  subst hop
  rw [heard_tick wf'] at hh
  exact silentR wf' hm hh hst

theorem holdsR_of_timer {plat} {s : Node} (wf : s.WF) {D : Nat}
    (hD : D ≤ s.timers.changeEffect.toNat) : PacedHolds plat s D := by
  intro t h s' p c hu
  refine (holdR wf p fun x hx => ⟨(hu x hx).1, .inr ?_⟩).2
  have hx' := (hu x hx).2
  obtain ⟨a, b, rfl⟩ := List.append_of_mem hx
  have : ∀ a, Advancing t (a ++ x :: b) → x.reads.change.toNat ≤ ended x := by
    intro a
    induction a with
    | nil => intro c; exact ((Advancing.cons c).inside _ (by simp [Reads.list])).2
    | cons y a ih => intro c; exact ih (Advancing.cons c).rest
  have := this a c
  omega

theorem changesR_of_timer {plat} {s : Node} (wf : s.WF) (h0 : s.timers.changeEffect ≠ 0) {D : Nat}
    (hD : s.timers.changeEffect.toNat ≤ D) : PacedChanges plat s D := by
  intro t h x₁ x₂ s' p c hu hq hD' h21
  have o₂ := Advancing.cons c
  have o₁ := Advancing.cons o₂.rest
  have e₂ : x₂.reads.change ∈ x₂.reads.list := by simp [Reads.list]
  have e₁ : x₁.reads.change ∈ x₁.reads.list := by simp [Reads.list]
  have e₀ : x₁.reads.eventTimer ∈ x₁.reads.list := by simp [Reads.list]
  have e₃ : x₂.reads.first ∈ x₂.reads.list := by simp [Reads.list]
  have b₁ := (o₁.inside _ e₁).1
  have b₀ := (o₁.inside _ e₀).1
  have b₂ := (o₂.inside _ e₂).1
  have b₃ := (o₂.inside _ e₃).2
  have b₄ := o₂.before x₁ List.mem_cons_self
  have b₅ := (o₁.inside _ e₀).2
  have w := o₁.bound _ e₀
  simp only [began, ended] at hD' h21 b₄
  obtain ⟨p₁, hpost₂, wf₂, _, _⟩ := p.cons_inv wf
  have s₂ := silentR' p wf (hq _ (List.mem_cons_of_mem _ List.mem_cons_self))
  have s₁ := silentR' p₁ wf (hq _ List.mem_cons_self)
  obtain ⟨p₀, hpost₁, wf₁, _, _⟩ := p₁.cons_inv wf
  rcases pendingR wf p₀ hu with hp | ⟨e, he, hf⟩
  · have due₁ : ¬ (x₁.entry.pre.timers.changeEffect = 0 ∨
        ¬ x₁.entry.pre.timers.changeEffect < x₁.reads.change) := by
      rw [hp]
      rintro (h | h)
      · exact h0 h
      · exact h (BitVec.lt_def.2 (by omega))
    cases s₁ with
    | idle _ h2 => exact absurd h2 due₁
    | change q hf => exact ⟨_, List.mem_cons_of_mem _ List.mem_cons_self, q, hf⟩
    | repeats q _ h2 => exact absurd h2 due₁
    | beat q _ _ hhb hce hbc =>
      have due₂ : ¬ (x₂.entry.pre.timers.changeEffect = 0 ∨
          ¬ x₂.entry.pre.timers.changeEffect < x₂.reads.change) := by
        rw [← hpost₁, hce, hp]
        rintro (h | h)
        · exact h0 h
        · exact h (BitVec.lt_def.2 (by omega))
      cases s₂ with
      | idle _ h2 => exact absurd h2 due₂
      | change q hf => exact ⟨_, List.mem_cons_self, q, hf⟩
      | repeats q _ h2 => exact absurd h2 due₂
      | beat q _ _ _ _ _ hd =>
        rw [← hpost₁, hhb, BitVec.lt_def, Node.add_toNat w (by decide)] at hd
        have : (1000 : U32).toNat = 1000 := rfl
        omega
  · exact ⟨e, List.mem_cons_of_mem _ (List.mem_cons_of_mem _ he), hf⟩

theorem neverR_of_timer {plat} {s : Node} (wf : s.WF) (h0 : s.timers.changeEffect = 0) :
    PacedNever plat s := by
  intro h s' x hu
  exact (holdR wf x fun e he => ⟨hu e he, .inl h0⟩).2

end Firefly
