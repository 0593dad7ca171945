import Verif.Spec.Clocked
import Verif.Lemmas.History

/-! # One radio tick on a clock that advances -/

namespace Firefly
open Spec
namespace Node

/-- The node after `beginMaster`. -/
def afterBeginMasterR (plat : Platform) (r : Reads) (s : Node) : Node :=
  let s := afterHeartbeat plat r.beat s
  { s with
    state := .master
    next := .master
    timers :=
      { none := s.timers.none
        heartbeat := r.beatTimer + kMasterHeartbeatInterval
        broadcastEffect := r.broadcastTimer + kBroadcastEffectInterval
        changeEffect :=
          if kChangeEffectInterval < r.test - s.effectChangeSeenAt then r.changeTimer + 1
          else if kChangeEffectInterval - (r.rest - s.effectChangeSeenAt) = 0 then 0
          else r.changeTimer + (kChangeEffectInterval - (r.rest - s.effectChangeSeenAt)) } }

theorem beginMasterR_eq {plat r} {s : Node} (h : s.nm.idx.toNat < 5) :
    s.beginMasterR plat r =
      .ok { afterBeginMasterR plat r s with state := s.state, next := s.next } := by
  have h0 : (afterHeartbeat plat r.beat s).effectChangeSeenAt = s.effectChangeSeenAt := rfl
  by_cases h1 : kChangeEffectInterval < r.test - s.effectChangeSeenAt
  · simp only [beginMasterR, sendHeartbeat_eq h, bind, Except.bind, pure, Except.pure, setTimer,
      Timers.set, h0, if_pos h1, afterBeginMasterR]
    rfl
  · simp only [beginMasterR, sendHeartbeat_eq h, bind, Except.bind, pure, Except.pure, setTimer,
      Timers.set, h0, if_neg h1, afterBeginMasterR]
    rfl

theorem finishTickR_same {plat r} {s : Node} (h : s.next = s.state) :
    s.finishTickR plat r = .ok s := by
  simp only [finishTickR, h, ne_eq, not_true, if_false, bind, Except.bind, pure, Except.pure]
  cases s; simp_all

theorem finishTickR_master {plat r} {s : Node} (hi : s.nm.idx.toNat < 5)
    (h : s.state = .slave) (h' : s.next = .master) :
    s.finishTickR plat r = .ok (afterBeginMasterR plat r (s.setTimer r.beat .heartbeat 0)) := by
  have hne : s.next ≠ s.state := by rw [h, h']; decide
  have hn : (s.setTimer r.beat .heartbeat 0).next = .master := h'
  have hb := beginMasterR_eq (plat := plat) (r := r) (s := s.setTimer r.beat .heartbeat 0) hi
  simp only [finishTickR, if_pos hne, hn, hb, bind, Except.bind, pure, Except.pure]
  rfl

/-- A tick in which only the clock reading at the end of the handler or in `beginSlave` matters. -/
theorem finishTickR_packet {plat r} {s : Node} (h : s.next = .slave ∨ s.next = s.state) :
    s.finishTickR plat r = s.finishTick plat r.beatTimer := by
  unfold finishTickR finishTick
  by_cases hne : s.next ≠ s.state
  · have hn : s.next = .slave := h.resolve_right hne
    have h1 : ∀ t, (s.setTimer t .heartbeat 0).next = .slave := fun _ => hn
    simp only [if_pos hne, h1, bind, Except.bind, pure, Except.pure]
    rfl
  · simp only [if_neg hne]

/-- Everything one radio tick can do. -/
inductive PacedCase (plat : Platform) (r : Reads) (rx : Option Packet) (s : Node) : Node → Prop
  | quiet (hd : s.delivered rx = none)
      (ht : (s.state = .slave ∧ s.timerExpiredR r ≠ .heartbeat) ∨
        (s.state = .master ∧ s.timerExpiredR r = .none)) : PacedCase plat r rx s s
  | takeOver (hd : s.delivered rx = none) (hs : s.state = .slave)
      (ht : s.timerExpiredR r = .heartbeat) :
      PacedCase plat r rx s
        (afterBeginMasterR plat r { s with timers := { s.timers with heartbeat := 0 } })
  | beat (hd : s.delivered rx = none) (hs : s.state = .master)
      (ht : s.timerExpiredR r = .heartbeat) :
      PacedCase plat r rx s { afterHeartbeat plat r.event s with
        timers := { s.timers with heartbeat := r.eventTimer + kMasterHeartbeatInterval } }
  | change (hd : s.delivered rx = none) (hs : s.state = .master)
      (ht : s.timerExpiredR r = .changeEffect) (e pal : U16) (r₁ r₂ : Rand)
      (he : randomRange plat 0 (s.numEffects.setWidth 16) s.rand = .ok (e, r₁))
      (hp : randomRange plat 0 (s.numPalettes.setWidth 16) r₁ = .ok (pal, r₂)) :
      PacedCase plat r rx s (afterChange plat r.eventTimer e pal r₂ s)
  | repeat (hd : s.delivered rx = none) (hs : s.state = .master)
      (ht : s.timerExpiredR r = .broadcastEffect) :
      PacedCase plat r rx s { afterSend plat s.setEffectPacket s with
        setEffectPacket := stamped plat s.setEffectPacket s
        timers := { s.timers with broadcastEffect := r.eventTimer + kBroadcastEffectInterval } }
  | heartbeat (p) (hd : s.delivered rx = some p) (hs : s.state = .slave) (hp : p.type = .heartbeat)
      (hl : plat = .host → p.len = 4) :
      PacedCase plat r rx s
        (armSlaveTimeout r.eventTimer { afterAccept p s with millisOffset := p.timeField - r.event })
  | packet (p t s') (hd : s.delivered rx = some p) (hs : ¬ (s.state = .slave ∧ p.type = .heartbeat))
      (ht : t = r.event ∨ t = r.eventTimer ∨ t = r.beatTimer)
      (hc : s.radioTick plat t rx = .ok s') : PacedCase plat r rx s s'

theorem handleSlavePacket_state {plat t p} {s a : Node} (h : s.handleSlavePacket plat t p = .ok a) :
    a.next = s.next ∧ a.state = s.state := by
  unfold handleSlavePacket at h
  split at h
  · obtain ⟨_, _, h⟩ := bind_ok h
    cases h; exact ⟨rfl, rfl⟩
  · cases h; exact ⟨rfl, rfl⟩
  · obtain ⟨_, _, h⟩ := bind_ok h
    obtain ⟨_, _, h⟩ := bind_ok h
    dsimp only at h
    split at h
    · cases h; exact ⟨rfl, rfl⟩
    · obtain ⟨_, _, h⟩ := bind_ok h
      cases h; exact ⟨rfl, rfl⟩
  · cases h; exact ⟨rfl, rfl⟩
  · cases h; exact ⟨rfl, rfl⟩

theorem handleMasterPacket_state {plat t p} {s a : Node} (hi : s.nm.idx.toNat < 5)
    (hp : p.type = .heartbeat ∨ p.type = .claimMaster)
    (h : s.handleMasterPacket plat t p = .ok a) :
    (a.next = s.next ∨ a.next = .slave) ∧ a.state = s.state := by
  unfold handleMasterPacket at h
  rcases hp with hp | hp <;> rw [hp] at h
  · simp only [performMasterElection, randomRange_election, bind, Except.bind] at h
    split at h
    · rw [nmSend_eq (by exact hi)] at h
      cases h; exact ⟨.inl rfl, rfl⟩
    · cases h; exact ⟨.inr rfl, rfl⟩
  · cases h; exact ⟨.inr rfl, rfl⟩

theorem handleMasterPacket_same {plat t p} {s a : Node}
    (hp : ¬ (p.type = .heartbeat ∨ p.type = .claimMaster))
    (h : s.handleMasterPacket plat t p = .ok a) : a.next = s.next ∧ a.state = s.state := by
  unfold handleMasterPacket at h
  split at h
  · rename_i e; exact absurd (.inl e) hp
  · rename_i e; exact absurd (.inr e) hp
  · obtain ⟨_, _, h⟩ := bind_ok h
    obtain ⟨_, _, h⟩ := bind_ok h
    cases h; exact ⟨rfl, rfl⟩
  · obtain ⟨_, _, h⟩ := bind_ok h
    cases h; exact ⟨rfl, rfl⟩
  · cases h; exact ⟨rfl, rfl⟩

theorem handleMasterPacket_clock {plat t t' p} {s : Node}
    (hp : p.type = .heartbeat ∨ p.type = .claimMaster) :
    s.handleMasterPacket plat t p = s.handleMasterPacket plat t' p := by
  unfold handleMasterPacket
  rcases hp with hp | hp <;> rw [hp]

theorem finishTickR_eq {plat r t} {a : Node}
    (h : a.next = a.state ∨ a.next = .slave ∧ t = r.beatTimer) :
    a.finishTickR plat r = a.finishTick plat t := by
  rcases h with h | ⟨h, rfl⟩
  · rw [finishTickR_same h, finishTick_same h]
  · exact finishTickR_packet (.inl h)

/-- What a tick does that handles a packet other than a heartbeat heard as a slave. -/
theorem radioTickR_packet {plat r rx p} {s s' : Node} (wf : s.WF) (hd : s.delivered rx = some p)
    (hs : ¬ (s.state = .slave ∧ p.type = .heartbeat)) (h : s.radioTickR plat r rx = .ok s') :
    ∃ t, (t = r.event ∨ t = r.eventTimer ∨ t = r.beatTimer) ∧ s.radioTick plat t rx = .ok s' := by
  have hidx : (afterAccept p s).nm.idx.toNat < 5 := NM.push_idx wf.idx p.id
  have hsame : (afterAccept p s).next = (afterAccept p s).state := wf.next
  simp only [radioTickR, receive_some wf.idx hd] at h
  replace h : (handleEventR plat r (some p) (s.timerExpiredR r) (afterAccept p s)).bind
      (finishTickR plat r) = .ok s' := h
  obtain ⟨a, ha, h⟩ := bind_ok h
  replace ha : handleEventR plat r (some p) (s.timerExpiredR r) (afterAccept p s) = .ok a := ha
  have key : ∀ t, handleEvent plat t (some p) .none (afterAccept p s) = .ok a →
      a.finishTickR plat r = a.finishTick plat t → s.radioTick plat t rx = .ok s' := by
    intro t h1 h2
    rw [radioTick_some wf.idx hd, h1]
    exact h2.symm.trans h
  cases hst : s.state with
  | slave =>
    have hs' : (afterAccept p s).state = .slave := hst
    have hr : ∃ t, (t = r.event ∨ t = r.eventTimer ∨ t = r.beatTimer) ∧
        handleSlavePacket plat t p (afterAccept p s) = .ok a := by
      simp only [handleEventR, hs', handleSlavePacketR] at ha
      cases hp : p.type with
      | heartbeat => exact absurd ⟨hst, hp⟩ hs
      | claimMaster => rw [hp] at ha; exact ⟨_, .inr (.inl rfl), ha⟩
      | setEffect => rw [hp] at ha; exact ⟨_, .inl rfl, ha⟩
      | setControl => rw [hp] at ha; exact ⟨_, .inl rfl, ha⟩
      | other n k => rw [hp] at ha; exact ⟨_, .inl rfl, ha⟩
    obtain ⟨t, ht, hh⟩ := hr
    obtain ⟨h1, h2⟩ := handleSlavePacket_state hh
    exact ⟨t, ht, key t ((handleEvent_slavePacket hs').trans hh)
      (finishTickR_eq (.inl (by rw [h1, h2, hsame])))⟩
  | master =>
    have hs' : (afterAccept p s).state = .master := hst
    have ha' : handleMasterPacket plat r.eventTimer p (afterAccept p s) = .ok a := by
      simpa only [handleEventR, hs'] using ha
    by_cases hp : p.type = .heartbeat ∨ p.type = .claimMaster
    · obtain ⟨h1, h2⟩ := handleMasterPacket_state hidx hp ha'
      rw [handleMasterPacket_clock (t' := r.beatTimer) hp] at ha'
      refine ⟨_, .inr (.inr rfl), key _ ((handleEvent_masterPacket hs').trans ha')
        (finishTickR_eq ?_)⟩
      rcases h1 with h1 | h1
      · exact .inl (by rw [h1, h2, hsame])
      · exact .inr ⟨h1, rfl⟩
    · obtain ⟨h1, h2⟩ := handleMasterPacket_same hp ha'
      exact ⟨_, .inr (.inl rfl), key _ ((handleEvent_masterPacket hs').trans ha')
        (finishTickR_eq (.inl (by rw [h1, h2, hsame])))⟩

theorem radioTickR_cases {plat r rx} {s s' : Node} (wf : s.WF) (h : s.radioTickR plat r rx = .ok s') :
    PacedCase plat r rx s s' := by
  cases hd : s.delivered rx with
  | none =>
    simp only [radioTickR, receive_none hd, bind, Except.bind, List.append_nil] at h
    cases hs : s.state with
    | slave =>
      by_cases ht : s.timerExpiredR r = .heartbeat
      · have : s.handleEventR plat r none (s.timerExpiredR r) = .ok { s with next := .master } := by
          have key : ∀ s : Node, s.state = .slave →
              s.handleEventR plat r none .heartbeat = .ok { s with next := .master } := by
            intro s hs; cases s; cases hs; rfl
          rw [ht, key s hs]
        rw [show ({ s with nm := s.nm, sent := s.sent } : Node) = s from rfl, this] at h
        dsimp only at h
        rw [finishTickR_master (s := { s with next := .master }) wf.idx hs rfl] at h
        cases h
        exact .takeOver hd hs ht
      · have : s.handleEventR plat r none (s.timerExpiredR r) = .ok s := by
          by_cases h0 : s.timerExpiredR r = .none
          · rw [h0]; rfl
          · simp only [handleEventR, hs, if_neg h0]
            cases h : s.timerExpiredR r <;> first | rfl | exact absurd h ht | exact absurd h h0
        rw [show ({ s with nm := s.nm, sent := s.sent } : Node) = s from rfl, this] at h
        dsimp only at h
        rw [finishTickR_same (by exact wf.next)] at h
        cases h
        exact .quiet hd (.inl ⟨hs, ht⟩)
    | master =>
      rw [show ({ s with nm := s.nm, sent := s.sent } : Node) = s from rfl] at h
      cases ht : s.timerExpiredR r with
      | none =>
        rw [ht] at h
        have : s.handleEventR plat r none .none = .ok s := rfl
        rw [this] at h
        dsimp only at h
        rw [finishTickR_same (by exact wf.next)] at h
        cases h
        exact .quiet hd (.inr ⟨hs, ht⟩)
      | heartbeat =>
        rw [ht] at h
        have : s.handleEventR plat r none .heartbeat = s.handleMasterTimerR plat r .heartbeat := by
          unfold handleEventR; rw [hs]; rfl
        rw [this] at h
        simp only [handleMasterTimerR, sendHeartbeat_eq wf.idx, bind, Except.bind,
          pure, Except.pure, setTimer] at h
        rw [finishTickR_same (by exact wf.next)] at h
        cases h
        exact .beat hd hs ht
      | changeEffect =>
        rw [ht] at h
        have : s.handleEventR plat r none .changeEffect =
            s.handleMasterTimer plat r.eventTimer .changeEffect := by
          unfold handleEventR; rw [hs]; rfl
        rw [this] at h
        simp only [handleMasterTimer, bind] at h
        cases he : randomRange plat 0 (s.numEffects.setWidth 16) s.rand with
        | error f => rw [he] at h; cases h
        | ok er =>
          obtain ⟨e, r₁⟩ := er
          rw [he] at h
          dsimp only [Except.bind] at h
          cases hp : randomRange plat 0 (s.numPalettes.setWidth 16) r₁ with
          | error f => rw [hp] at h; cases h
          | ok pr =>
            obtain ⟨pal, r₂⟩ := pr
            rw [hp] at h
            dsimp only at h
            rw [nmSend_eq (by exact wf.idx)] at h
            dsimp only [pure, Except.pure] at h
            rw [finishTickR_same (by exact wf.next)] at h
            cases h
            exact .change hd hs ht e pal r₁ r₂ he hp
      | broadcastEffect =>
        rw [ht] at h
        have : s.handleEventR plat r none .broadcastEffect =
            s.handleMasterTimer plat r.eventTimer .broadcastEffect := by
          unfold handleEventR; rw [hs]; rfl
        rw [this] at h
        simp only [handleMasterTimer, nmSend_eq wf.idx, bind, Except.bind,
          pure, Except.pure, setTimer] at h
        rw [finishTickR_same (by exact wf.next)] at h
        cases h
        exact .repeat hd hs ht
  | some p =>
    by_cases hs : s.state = .slave ∧ p.type = .heartbeat
    · simp only [radioTickR, receive_some wf.idx hd, bind, Except.bind] at h
      have e : ∀ t, handleEventR plat r (some p) t (afterAccept p s) =
          (p.readTimeFromHeartbeat plat).bind fun t =>
            .ok ({ afterAccept p s with millisOffset := t - r.event }.armSlaveTimeout r.eventTimer) := by
        intro t
        have hs' : (afterAccept p s).state = .slave := hs.1
        simp only [handleEventR, hs', handleSlavePacketR, hs.2]
        rfl
      rw [show ({ s with nm := s.nm.push p.id, sent := s.sent ++ [p] } : Node) = afterAccept p s from rfl,
        e, readTime_eq hs.2] at h
      by_cases hl : plat = .host ∧ p.len ≠ 4
      · rw [if_pos hl] at h; cases h
      · rw [if_neg hl] at h
        dsimp only [Except.bind] at h
        rw [finishTickR_same (by exact wf.next)] at h
        cases h
        exact .heartbeat p hd hs.1 hs.2 (by grind)
    · obtain ⟨t, ht, hc⟩ := radioTickR_packet wf hd hs h
      exact .packet p t s' hd hs ht hc

theorem radioTickR_wf {plat r rx} {s s' : Node} (wf : s.WF) (h : s.radioTickR plat r rx = .ok s') :
    s'.WF := by
  have hi := wf.idx
  have hi' := fun id => NM.push_idx hi id
  have hn := wf.next
  have ht := wf.timerNone
  have hc := radioTickR_cases wf h
  by_cases hp : ∃ t, s.radioTick plat t rx = .ok s'
  · obtain ⟨t, hc⟩ := hp
    exact (radioTick_cases wf hc).wf wf
  · refine ⟨?_, ?_, ?_⟩
    · cases hc <;> first | with_reducible exact hi | exact hi' _ | exact absurd ⟨_, ‹_›⟩ hp
    · cases hc <;> first | exact hn | rfl | exact absurd ⟨_, ‹_›⟩ hp
    · cases hc <;> first | exact absurd ⟨_, ‹_›⟩ hp | simp [ht, afterBeginMasterR]

theorem radioTickR_instruction {plat r rx} {s s' : Node} (wf : s.WF)
    (hs : IsInstruction s.setEffectPacket) (h : s.radioTickR plat r rx = .ok s') :
    IsInstruction s'.setEffectPacket := by
  cases radioTickR_cases wf h with
  | packet p t _ hd hs' ht hc =>
    exact step_instruction (op := .radioTick t rx) wf hs (by intro _ _ h; cases h) hc
  | takeOver => simpa [IsInstruction, afterBeginMasterR] using hs
  | _ => simp_all [IsInstruction, Packet.writeSetEffect]

theorem timerExpiredR_heartbeat {r} {s : Node} (wf : s.WF) :
    s.timerExpiredR r = .heartbeat ↔ s.timers.heartbeat ≠ 0 ∧ s.timers.heartbeat < r.first := by
  simp only [timerExpiredR, wf.timerNone]
  simp
  grind

/-- With one reading for the whole tick this is `radioTick`. -/
theorem radioTickR_const {plat t rx} {s : Node} :
    s.radioTickR plat (.const t) rx = s.radioTick plat t rx := by
  have h1 : ∀ p (s : Node), s.handleSlavePacketR plat (.const t) p = s.handleSlavePacket plat t p := by
    intro p s
    unfold handleSlavePacketR
    cases hp : p.type <;> simp only [handleSlavePacket, hp] <;> rfl
  have h2 : ∀ k (s : Node), s.handleMasterTimerR plat (.const t) k = s.handleMasterTimer plat t k := by
    intro k s; cases k <;> rfl
  have h3 : ∀ q k (s : Node), s.handleEventR plat (.const t) q k = s.handleEvent plat t q k := by
    intro q k s
    unfold handleEventR handleEvent
    simp only [h1, h2]
    rfl
  have h4 : ∀ (s : Node), s.finishTickR plat (.const t) = s.finishTick plat t := fun _ => rfl
  unfold radioTickR radioTick
  simp only [h3, h4]
  rfl

end Node

/-! ### Histories -/

theorem Paced.wf {plat s₀ h s} (wf : s₀.WF) (x : Paced plat s₀ h s) : s.WF := by
  induction x with
  | nil => exact wf
  | tick r rx _ hst ih => exact Node.radioTickR_wf ih hst
  | call op _ _ hst ih => exact Node.step_wf ih hst

/-- The readings of one step in order, and after everything before it. -/
structure Ordered (t₀ : U32) (h : List Timed) (r : Reads) : Prop where
  inside : ∀ t ∈ r.list, r.first.toNat ≤ t.toNat ∧ t.toNat ≤ r.changeTimer.toNat
  bound : ∀ t ∈ r.list, t.toNat + 255000 < 2 ^ 32
  start : t₀.toNat ≤ r.first.toNat
  before : ∀ x ∈ h, ended x ≤ r.first.toNat
  before' : ∀ x ∈ h, began x ≤ r.first.toNat
  rest : Advancing t₀ h

theorem Spec.Advancing.cons {t₀ x h} (c : Advancing t₀ (x :: h)) : Ordered t₀ h x.reads := by
  obtain ⟨c1, c2⟩ := c
  simp only [List.flatMap_cons, List.append_assoc] at c1 c2
  rw [List.pairwise_append] at c1
  obtain ⟨a, b, c⟩ := c1
  have hf : x.reads.first ∈ x.reads.list.reverse := by simp [Reads.list]
  refine ⟨?_, fun t ht => c2 t (List.mem_append_left _ ht), ?_, ?_, ?_, b, fun t ht => c2 t (List.mem_append_right _ ht)⟩
  · intro t ht
    rw [List.pairwise_reverse] at a
    simp only [Reads.list, List.pairwise_cons, List.mem_cons, ge_iff_le, BitVec.le_def] at a ht
    simp at a
    rcases ht with rfl | rfl | rfl | rfl | rfl | rfl | rfl | rfl | rfl | rfl | rfl | ht
    all_goals first | (constructor <;> omega) | cases ht
  · exact BitVec.le_def.mp (c _ hf _ (by simp))
  · intro y hy
    refine BitVec.le_def.mp (c _ hf _ (List.mem_append_left _ ?_))
    exact List.mem_flatMap.mpr ⟨y, hy, by simp [Reads.list]⟩
  · intro y hy
    refine BitVec.le_def.mp (c _ hf _ (List.mem_append_left _ ?_))
    exact List.mem_flatMap.mpr ⟨y, hy, by simp [Reads.list]⟩

theorem Paced.instruction {plat t₀ rand junk junk' h s}
    (x : Paced plat (Node.init t₀ rand junk junk') h s) (p : ProperUse (h.map Timed.entry)) :
    IsInstruction s.setEffectPacket := by
  induction x with
  | nil => exact Or.inl rfl
  | tick r rx hx hst ih =>
    exact Node.radioTickR_instruction (hx.wf .init) (ih (ProperUse.cons p).1) hst
  | call op hx hn hst ih =>
    have p' := ProperUse.cons p
    exact Node.step_instruction (hx.wf .init) (ih p'.1) (fun now q => p'.2 now q) hst

/-- What a step can do to the heartbeat timer. -/
inductive HbStepR (x : Timed) : Prop
  | keep (hs : x.entry.post.state = x.entry.pre.state)
      (ht : x.entry.post.timers.heartbeat = x.entry.pre.timers.heartbeat)
      (ho : ¬ Entry.OwnHeartbeat x.entry)
      (hm : x.entry.pre.state = .slave → ¬ Entry.HeardMaster x.entry)
  | rearm (hs : x.entry.post.state = .slave)
      (ht : began x + 5000 ≤ x.entry.post.timers.heartbeat.toNat)
      (ht' : x.entry.post.timers.heartbeat.toNat < ended x + 7000)
      (ho : ¬ Entry.OwnHeartbeat x.entry) (hm : Entry.HeardMaster x.entry)
  | beat (hs' : x.entry.post.state = .master)
      (h0 : x.entry.pre.timers.heartbeat ≠ 0) (h1 : x.entry.pre.timers.heartbeat < x.reads.first)
      (ht : began x + 1000 ≤ x.entry.post.timers.heartbeat.toNat)
      (ht' : x.entry.post.timers.heartbeat.toNat ≤ ended x + 1000)
      (ho : Entry.OwnHeartbeat x.entry) (hm : ¬ Entry.HeardMaster x.entry)

theorem hb_tickR {plat r rx t₀ h} {s s' : Node} (wf : s.WF) (hi : IsInstruction s.setEffectPacket)
    (hst : s.radioTickR plat r rx = .ok s') (o : Ordered t₀ h r) :
    HbStepR ⟨⟨s, .radioTick r.first rx, s'⟩, r⟩ := by
  have hh := fun x => heard_tick (s' := x) (now := r.first) (rx := rx) wf
  have hx := Node.timerExpiredR_heartbeat (r := r) wf
  have hm : ∀ t, t ∈ r.list → t.toNat + 255000 < 2 ^ 32 ∧ r.first.toNat ≤ t.toNat ∧
      t.toNat ≤ r.changeTimer.toNat := fun t ht => ⟨o.bound t ht, o.inside t ht⟩
  have hev := hm r.eventTimer (by simp [Reads.list])
  have hbt := hm r.beatTimer (by simp [Reads.list])
  cases Node.radioTickR_cases wf hst with
  | quiet hd ht =>
    refine .keep rfl rfl ?_ ?_
    · simp [Entry.OwnHeartbeat, Entry.transmitted]
    · simp [Entry.HeardMaster, hh, hd]
  | takeOver hd hs ht =>
    have e : (r.beatTimer + kMasterHeartbeatInterval).toNat = r.beatTimer.toNat + 1000 :=
      Node.add_toNat hbt.1 (by decide)
    refine .beat rfl (hx.1 ht).1 (hx.1 ht).2 ?_ ?_ ?_ ?_
    · simp only [began, Node.afterBeginMasterR, e]; omega
    · simp only [ended, Node.afterBeginMasterR, e]; omega
    · simp [Entry.OwnHeartbeat, Entry.IsTick, Entry.transmitted, hh, hd, Packet.writeHeartbeat,
        Node.afterBeginMasterR]
    · simp [Entry.HeardMaster, hh, hd]
  | beat hd hs ht =>
    have e : (r.eventTimer + kMasterHeartbeatInterval).toNat = r.eventTimer.toNat + 1000 :=
      Node.add_toNat hev.1 (by decide)
    refine .beat hs (hx.1 ht).1 (hx.1 ht).2 ?_ ?_ ?_ ?_
    · simp only [began, e]; omega
    · simp only [ended, e]; omega
    · simp [Entry.OwnHeartbeat, Entry.IsTick, Entry.transmitted, hh, hd, Packet.writeHeartbeat]
    · simp [Entry.HeardMaster, hh, hd]
  | change hd hs ht =>
    refine .keep (by simp) (by simp) ?_ ?_
    · simp [Entry.OwnHeartbeat, Entry.transmitted, Packet.writeSetEffect]
    · simp [Entry.HeardMaster, hh, hd]
  | «repeat» hd hs ht =>
    refine .keep (by simp) (by simp) ?_ ?_
    · simp only [Entry.OwnHeartbeat, Entry.transmitted, IsInstruction] at hi ⊢
      simp
      intro _ _ h
      simp [h] at hi
    · simp [Entry.HeardMaster, hh, hd]
  | heartbeat p hd hs hp hl =>
    have hto := Node.timeout_toNat hev.1
    refine .rearm hs ?_ ?_ ?_ ?_
    · simp only [began, Node.armSlaveTimeout_timers, hto]; omega
    · simp only [ended, Node.armSlaveTimeout_timers, hto]; omega
    · simp [Entry.OwnHeartbeat, hh, hd]
    · simp [Entry.HeardMaster, hh, hd, hp]
  | packet p t _ hd hs ht hc =>
    have hmt := hm t (by rcases ht with rfl | rfl | rfl <;> simp [Reads.list])
    have hno : ¬ Entry.OwnHeartbeat (⟨s, .radioTick r.first rx, s'⟩ : Entry) := by
      simp [Entry.OwnHeartbeat, hh, hd]
    have hno' : ¬ Entry.OwnHeartbeat (⟨s, .radioTick t rx, s'⟩ : Entry) := by
      have := heard_tick (s' := s') (now := t) (rx := rx) wf
      simp [Entry.OwnHeartbeat, this, hd]
    cases Node.hb_step (op := .radioTick t rx) wf hi hc hmt.1 with
    | keep h1 h2 h3 h4 => exact .keep h1 h2 hno h4
    | rearm h1 h2 h3 h4 h5 =>
      simp only [Entry.time, Op.time] at h2 h3
      exact .rearm h1 (by simp only [began]; omega) (by simp only [ended]; omega) hno h5
    | takeOver _ _ _ _ _ h4 => exact absurd h4 hno'
    | beat _ _ _ _ _ h4 => exact absurd h4 hno'

theorem hb_callR {plat op} {s s' : Node} (wf : s.WF) (hi : IsInstruction s.setEffectPacket)
    (hn : ∀ now rx, op ≠ .radioTick now rx) (hst : Op.step plat op s = .ok s')
    (hc : op.time.toNat + 255000 < 2 ^ 32) : HbStepR ⟨⟨s, op, s'⟩, .const op.time⟩ := by
  have hno : ¬ Entry.OwnHeartbeat (⟨s, op, s'⟩ : Entry) := fun h => by
    obtain ⟨now, rx, h⟩ := h.1
    exact hn _ _ h
  have hnh : ¬ Entry.HeardMaster (⟨s, op, s'⟩ : Entry) := by
    rintro ⟨p, h, _⟩
    cases op with
    | radioTick now rx => exact hn _ _ rfl
    | _ => simp [Entry.heard] at h
  cases Node.hb_step wf hi hst hc with
  | keep h1 h2 h3 h4 => exact .keep h1 h2 h3 h4
  | rearm _ _ _ _ h => exact absurd h hnh
  | takeOver _ _ _ _ _ h4 => exact absurd h4 hno
  | beat _ _ _ _ _ h4 => exact absurd h4 hno

/-- What is known of the heartbeat timer. -/
structure PacedInv (t₀ : U32) (h : List Timed) (s : Node) : Prop where
  since : s.state = .slave → t₀.toNat + 5000 ≤ s.timers.heartbeat.toNat
  sinceSign : s.state = .slave → ∀ x ∈ h, SignStep x → began x + 5000 ≤ s.timers.heartbeat.toNat
  until_ : s.state = .slave → s.timers.heartbeat.toNat < t₀.toNat + 7000 ∨
    ∃ x ∈ h, SignStep x ∧ s.timers.heartbeat.toNat < ended x + 7000
  own : ∀ x ∈ h, Entry.OwnHeartbeat x.entry → began x + 1000 ≤ s.timers.heartbeat.toNat
  ownLast : s.state = .master →
    ∃ x ∈ h, Entry.OwnHeartbeat x.entry ∧ s.timers.heartbeat.toNat ≤ ended x + 1000
  on : s.timers.heartbeat ≠ 0

theorem PacedInv.step {t₀ h x} (i : PacedInv t₀ h x.entry.pre) (b : HbStepR x) (o : Ordered t₀ h x.reads) :
    PacedInv t₀ (x :: h) x.entry.post := by
  have hord : ∀ y ∈ h, began y ≤ began x := o.before'
  have hst : t₀.toNat ≤ began x := o.start
  cases b with
  | keep h1 h2 h3 h4 =>
    have hsign : x.entry.post.state = .slave → ¬ SignStep x := by
      intro hs hx
      rcases hx with hx | hx
      · exact h4 (h1 ▸ hs) hx
      · have : x.entry.pre.state = .master := hx.1
        rw [h1, this] at hs; cases hs
    refine ⟨?_, ?_, ?_, ?_, ?_, ?_⟩
    · rw [h1, h2]; exact i.since
    · intro hs y hy hy'
      rcases List.mem_cons.1 hy with rfl | hy
      · exact absurd hy' (hsign hs)
      · rw [h2]; exact i.sinceSign (h1 ▸ hs) y hy hy'
    · rw [h1, h2]
      intro hs
      rcases i.until_ hs with h | ⟨y, hy, h⟩
      · exact .inl h
      · exact .inr ⟨y, List.mem_cons_of_mem _ hy, h⟩
    · intro y hy hy'
      rcases List.mem_cons.1 hy with rfl | hy
      · exact absurd hy' h3
      · rw [h2]; exact i.own y hy hy'
    · rw [h1, h2]
      intro hs
      obtain ⟨y, hy, h⟩ := i.ownLast hs
      exact ⟨y, List.mem_cons_of_mem _ hy, h⟩
    · rw [h2]; exact i.on
  | rearm h1 h2 h3 h4 h5 =>
    refine ⟨?_, ?_, ?_, ?_, ?_, ?_⟩
    · intro _; omega
    · intro _ y hy _
      rcases List.mem_cons.1 hy with rfl | hy
      · exact h2
      · have := hord y hy; omega
    · intro _
      exact .inr ⟨x, List.mem_cons_self, .inl h5, h3⟩
    · intro y hy hy'
      rcases List.mem_cons.1 hy with rfl | hy
      · exact absurd hy' h4
      · have := hord y hy; omega
    · intro h; rw [h1] at h; cases h
    · intro h; rw [h] at h2; simp at h2
  | beat h1 _ _ h2 h3 h4 h5 =>
    have hm : x.entry.post.state ≠ .slave := by rw [h1]; decide
    refine ⟨fun h => absurd h hm, fun h => absurd h hm, fun h => absurd h hm, ?_, ?_, ?_⟩
    · intro y hy _
      rcases List.mem_cons.1 hy with rfl | hy
      · exact h2
      · have := hord y hy; omega
    · intro _; exact ⟨x, List.mem_cons_self, h4, h3⟩
    · intro h; rw [h] at h2; simp at h2

theorem Paced.inv {plat t₀ rand junk junk' h s}
    (x : Paced plat (Node.init t₀ rand junk junk') h s) (p : ProperUse (h.map Timed.entry))
    (c : Advancing t₀ h) : PacedInv t₀ h s := by
  induction x with
  | nil =>
    have hb : t₀.toNat + 255000 < 2 ^ 32 := c.2 t₀ (by simp)
    have e : (Node.init t₀ rand junk junk').timers.heartbeat.toNat =
        t₀.toNat + 5000 + rand 0 % 2000 := by
      simp only [Node.init, Node.beginSlave, Node.armSlaveTimeout_timers]
      exact Node.timeout_toNat hb _
    refine ⟨fun _ => by omega, fun _ x hx => (by cases hx), fun _ => .inl (by omega),
      fun x hx => (by cases hx), fun h => (by cases h), fun h => (by rw [h] at e; have : (0 : U32).toNat = 0 := rfl; omega)⟩
  | tick r rx hx hst ih =>
    have o := Advancing.cons c
    have p' := ProperUse.cons p
    exact PacedInv.step (x := ⟨⟨_, .radioTick r.first rx, _⟩, r⟩) (ih p'.1 o.rest)
      (hb_tickR (hx.wf .init) (hx.instruction p'.1) hst o) o
  | call op hx hn hst ih =>
    have o := Advancing.cons c
    have p' := ProperUse.cons p
    exact PacedInv.step (x := ⟨⟨_, op, _⟩, .const op.time⟩) (ih p'.1 o.rest)
      (hb_callR (hx.wf .init) (hx.instruction p'.1) hn hst (o.bound _ (by simp [Reads.list, Reads.const]))) o

end Firefly
