import Verif.Lemmas.Instruction

/-! # The rotation and repetition timers -/

namespace Firefly
open Spec

theorem undisturbed_step {plat op} {s s' : Node} (wf : s.WF) (h : Op.step plat op s = .ok s')
    (hu : Undisturbed ⟨s, op, s'⟩) :
    (s'.timers.changeEffect = s.timers.changeEffect ∧
      SameContent s'.setEffectPacket s.setEffectPacket ∧ s'.effectIndex = s.effectIndex) ∨
    ((∃ q, FreshChoice plat ⟨s, op, s'⟩ q) ∧ s.timers.changeEffect ≠ 0 ∧
      s.timers.changeEffect < op.time) := by
  cases in_step wf h with
  | keep _ _ hc hi hce => exact Or.inl ⟨hce, hc ▸ .refl, hi⟩
  | takeOver _ hs hs' => exact absurd ⟨hs, hs'⟩ hu.2
  | locally p hop => exact absurd hop (hu.1.1 _ _)
  | slaveHeard p hh hp => exact absurd hp (hu.1.2 p hh)
  | masterHeard p hh hp => exact absurd hp (hu.1.2 p hh)
  | change q hf _ _ h0 h1 => exact Or.inr ⟨⟨q, hf⟩, h0, h1⟩
  | repeats q hf _ _ _ _ _ hce => exact Or.inl ⟨hce, hf.kept, hf.index⟩

theorem hold {plat s h s'} (wf : s.WF) (x : Exec plat s h s')
    (hu : ∀ e ∈ h, Undisturbed e ∧
      (s.timers.changeEffect = 0 ∨ (Entry.time e).toNat ≤ s.timers.changeEffect.toNat)) :
    s'.timers.changeEffect = s.timers.changeEffect ∧
      SameContent s'.setEffectPacket s.setEffectPacket ∧ s'.effectIndex = s.effectIndex := by
  induction x with
  | nil => exact ⟨rfl, .refl, rfl⟩
  | @cons h s₁ op s₂ hx hst ih =>
    obtain ⟨i1, i2, i3⟩ := ih fun e he => hu e (List.mem_cons_of_mem _ he)
    obtain ⟨u1, u2⟩ := hu _ List.mem_cons_self
    rcases undisturbed_step (hx.wf wf) hst u1 with ⟨h1, h2, h3⟩ | ⟨_, h0, h1⟩
    · exact ⟨h1.trans i1, h2.trans i2, h3.trans i3⟩
    · rw [i1] at h0 h1
      rcases u2 with u2 | u2
      · exact absurd u2 h0
      · have : op.time.toNat ≤ s.timers.changeEffect.toNat := u2
        have := BitVec.lt_def.1 h1
        omega

theorem rotation_pending {plat s h s'} (wf : s.WF) (x : Exec plat s h s')
    (hu : ∀ e ∈ h, Undisturbed e) :
    s'.timers.changeEffect = s.timers.changeEffect ∨ ∃ e ∈ h, ∃ q, FreshChoice plat e q := by
  induction x with
  | nil => exact Or.inl rfl
  | @cons h s₁ op s₂ hx hst ih =>
    rcases ih fun e he => hu e (List.mem_cons_of_mem _ he) with i | ⟨e, he, hq⟩
    · rcases undisturbed_step (hx.wf wf) hst (hu _ List.mem_cons_self) with ⟨h1, _⟩ | ⟨h1, _⟩
      · exact Or.inl (h1.trans i)
      · exact Or.inr ⟨_, List.mem_cons_self, h1⟩
    · exact Or.inr ⟨e, List.mem_cons_of_mem _ he, hq⟩

/-- What a silent tick of a master does. -/
inductive SilentStep (plat : Platform) (now : U32) (e : Entry) : Prop
  | idle (hpost : e.post = e.pre)
      (h1 : e.pre.timers.heartbeat = 0 ∨ ¬ e.pre.timers.heartbeat < now)
      (h2 : e.pre.timers.changeEffect = 0 ∨ ¬ e.pre.timers.changeEffect < now)
      (h3 : e.pre.timers.broadcastEffect = 0 ∨ ¬ e.pre.timers.broadcastEffect < now)
  | beat (q : Packet) (htx : Entry.transmitted e = [q]) (hq : q.type = .heartbeat)
      (hhb : e.post.timers.heartbeat = now + 1000)
      (hce : e.post.timers.changeEffect = e.pre.timers.changeEffect)
      (hbc : e.post.timers.broadcastEffect = e.pre.timers.broadcastEffect)
      (hd : e.pre.timers.heartbeat ≠ 0 ∧ e.pre.timers.heartbeat < now)
  | change (q : Packet) (hf : FreshChoice plat e q)
      (hhb : e.post.timers.heartbeat = e.pre.timers.heartbeat)
      (hce : e.post.timers.changeEffect = now + 60000)
      (hbc : e.post.timers.broadcastEffect = e.pre.timers.broadcastEffect)
      (hnd : e.pre.timers.heartbeat = 0 ∨ ¬ e.pre.timers.heartbeat < now)
      (hd : e.pre.timers.changeEffect ≠ 0 ∧ e.pre.timers.changeEffect < now)
  | repeats (q : Packet) (hf : Repeats e q)
      (hnd : e.pre.timers.heartbeat = 0 ∨ ¬ e.pre.timers.heartbeat < now)
      (hnd' : e.pre.timers.changeEffect = 0 ∨ ¬ e.pre.timers.changeEffect < now)
      (hd : e.pre.timers.broadcastEffect ≠ 0 ∧ e.pre.timers.broadcastEffect < now)

theorem not_due {t now : U32} (h : ¬ (t ≠ 0 ∧ t < now)) : t = 0 ∨ ¬ t < now := by
  by_cases h0 : t = 0
  · exact Or.inl h0
  · exact Or.inr fun h1 => h ⟨h0, h1⟩

theorem silent_step {plat now rx} {s s' : Node} (wf : s.WF) (hs : s.state = .master)
    (hq : s.delivered rx = none) (h : s.radioTick plat now rx = .ok s') :
    SilentStep plat now ⟨s, .radioTick now rx, s'⟩ ∧ s'.state = .master := by
  have key : ∀ t, s.timerExpired now = t →
      (t = .none → (s.timers.heartbeat = 0 ∨ ¬ s.timers.heartbeat < now) ∧
        (s.timers.changeEffect = 0 ∨ ¬ s.timers.changeEffect < now) ∧
        (s.timers.broadcastEffect = 0 ∨ ¬ s.timers.broadcastEffect < now)) ∧
      (t = .changeEffect → (s.timers.heartbeat = 0 ∨ ¬ s.timers.heartbeat < now) ∧
        s.timers.changeEffect ≠ 0 ∧ s.timers.changeEffect < now) ∧
      (t = .broadcastEffect → (s.timers.heartbeat = 0 ∨ ¬ s.timers.heartbeat < now) ∧
        (s.timers.changeEffect = 0 ∨ ¬ s.timers.changeEffect < now) ∧
        s.timers.broadcastEffect ≠ 0 ∧ s.timers.broadcastEffect < now) := by
    rintro t rfl
    unfold Node.timerExpired
    rw [if_neg (by simp [wf.timerNone])]
    by_cases h1 : s.timers.heartbeat ≠ 0 ∧ s.timers.heartbeat < now
    · rw [if_pos h1]; exact ⟨nofun, nofun, nofun⟩
    · rw [if_neg h1]
      by_cases h2 : s.timers.changeEffect ≠ 0 ∧ s.timers.changeEffect < now
      · rw [if_pos h2]; exact ⟨nofun, fun _ => ⟨not_due h1, h2⟩, nofun⟩
      · rw [if_neg h2]
        by_cases h3 : s.timers.broadcastEffect ≠ 0 ∧ s.timers.broadcastEffect < now
        · rw [if_pos h3]; exact ⟨nofun, nofun, fun _ => ⟨not_due h1, not_due h2, h3⟩⟩
        · rw [if_neg h3]; exact ⟨fun _ => ⟨not_due h1, not_due h2, not_due h3⟩, nofun, nofun⟩
  have st := in_step (op := .radioTick now rx) wf h
  have hh := fun x => heard_tick (s' := x) (now := now) (rx := rx) wf
  cases Node.radioTick_cases wf h
  case masterQuiet hd _ ht =>
    obtain ⟨k, _, _⟩ := key _ ht
    exact ⟨.idle rfl (k rfl).1 (k rfl).2.1 (k rfl).2.2, hs⟩
  case beat hd _ ht =>
    refine ⟨.beat (Node.stamped plat (s.packet.writeHeartbeat (s.getNetworkMillis now)) s)
      (by simp [Entry.transmitted]) rfl (by simp [kMasterHeartbeatInterval]) (by simp)
      (by simp) ((Node.timerExpired_heartbeat wf).1 ht), hs⟩
  case change hd _ ht e pal r r' he hp =>
    obtain ⟨_, k, _⟩ := key _ ht
    refine ⟨?_, hs⟩
    cases st with
    | change q hf _ _ _ _ hce hbc =>
      exact .change q hf (by simp) hce hbc (k rfl).1 (k rfl).2
    | keep _ _ _ _ _ _ _ htx =>
      simp [Entry.transmitted, Packet.writeSetEffect, IsInstruction] at htx
    | takeOver _ hs' => rw [hs] at hs'; cases hs'
    | locally p hop => cases hop
    | slaveHeard p hp => rw [hh, hd] at hp; cases hp
    | masterHeard p hp => rw [hh, hd] at hp; cases hp
    | repeats q hf hq _ _ _ _ hce hbc =>
      refine .change q ?_ (by simp) (by simp [kChangeEffectInterval]) (by simp) (k rfl).1 (k rfl).2
      have := hf.sent
      simp only [Entry.transmitted, Node.afterChange_sent, List.drop_left, List.cons.injEq,
        and_true] at this
      subst this
      refine ⟨⟨_, _, rfl⟩, hs, by rw [hh, hd], by simp [Entry.transmitted], rfl, rfl, ?_,
          ⟨e, pal, r, r', he, hp, ?_, ?_⟩, ?_, ?_⟩ <;>
          simp [Packet.writeSetEffect, SameContent, Node.getSetEffect, Node.getEffectIndex]
  case «repeat» hd _ ht =>
    obtain ⟨_, _, k⟩ := key _ ht
    refine ⟨.repeats (Node.stamped plat s.setEffectPacket s) ?_ (k rfl).1 (k rfl).2.1 (k rfl).2.2, hs⟩
    refine ⟨⟨_, _, rfl⟩, hs, by rw [hh, hd], by simp [Entry.transmitted], ?_, ?_, ?_⟩ <;>
      simp [SameContent, Node.getSetEffect, Node.getEffectIndex]
  all_goals simp_all

theorem rotates_of_timer {plat} {s : Node} (wf : s.WF) (h0 : s.timers.changeEffect ≠ 0) :
    RotatesAt plat s s.timers.changeEffect.toNat := by
  constructor
  · intro h s' x hu
    exact (hold wf x fun e he => ⟨(hu e he).1, Or.inr (hu e he).2⟩).2
  · intro h e₁ e₂ s' x hu hq hD h12 h21 hw
    cases x with
    | cons op₂ x hst₂ =>
    cases x with
    | @cons _ s₁ op₁ _ x hst₁ =>
    have wf₁ := x.wf wf
    have wf₂ := Node.step_wf wf₁ hst₁
    obtain ⟨⟨now₁, rx₁, hop₁⟩, hh₁, hm₁⟩ := hq _ List.mem_cons_self
    obtain ⟨⟨now₂, rx₂, hop₂⟩, hh₂, hm₂⟩ := hq _ (List.mem_cons_of_mem _ List.mem_cons_self)
    simp only at hop₁ hop₂
    subst hop₁ hop₂
    simp only [Entry.time, Op.time] at hD h12 h21 hw
    rw [heard_tick wf₁] at hh₁
    rw [heard_tick wf₂] at hh₂
    rcases rotation_pending wf x hu with hp | ⟨e, he, hf⟩
    · obtain ⟨st₁, hm⟩ := silent_step wf₁ hm₁ hh₁ hst₁
      cases st₁ with
      | idle _ _ h2 _ =>
        simp only at h2
        rw [hp] at h2
        rcases h2 with h2 | h2
        · exact absurd h2 h0
        · exact absurd (BitVec.lt_def.2 hD) h2
      | change q hf => exact ⟨_, List.mem_cons_of_mem _ List.mem_cons_self, q, hf⟩
      | repeats q _ _ h2 =>
        simp only at h2
        rw [hp] at h2
        rcases h2 with h2 | h2
        · exact absurd h2 h0
        · exact absurd (BitVec.lt_def.2 hD) h2
      | beat q _ _ hhb hce hbc =>
        simp only at hhb hce hbc
        rw [hp] at hce
        have hlt : s.timers.changeEffect < now₂ := BitVec.lt_def.2 (by omega)
        have hn : ¬ now₁ + 1000 < now₂ := by
          rw [BitVec.lt_def, BitVec.toNat_add]
          have : (1000 : U32).toNat = 1000 := rfl
          rw [this]
          omega
        obtain ⟨st₂, -⟩ := silent_step wf₂ hm₂ hh₂ hst₂
        cases st₂ with
        | idle _ _ h2 _ =>
          simp only at h2
          rw [hce] at h2
          rcases h2 with h2 | h2
          · exact absurd h2 h0
          · exact absurd hlt h2
        | change q hf => exact ⟨_, List.mem_cons_self, q, hf⟩
        | repeats q _ _ h2 =>
          simp only at h2
          rw [hce] at h2
          rcases h2 with h2 | h2
          · exact absurd h2 h0
          · exact absurd hlt h2
        | beat q _ _ _ _ _ hd => exact absurd (hhb ▸ hd.2) hn
    · exact ⟨e, List.mem_cons_of_mem _ (List.mem_cons_of_mem _ he), hf⟩

theorem never_of_timer {plat} {s : Node} (wf : s.WF) (h0 : s.timers.changeEffect = 0) :
    NeverRotates plat s := by
  intro h s' x hu
  exact (hold wf x fun e he => ⟨hu e he, Or.inl h0⟩).2

end Firefly
