import Verif.Lemmas.Rotation
import Verif.Lemmas.ClockedRotation
import Verif.Spec.Wrap

/-! # Lemmas about the wrap-around of the clock (C163) -/

namespace Firefly
open Spec

namespace Node

/-- What one step does to the heartbeat timer, without any assumption on the clock. -/
inductive HbStepW (e : Entry) : Prop
  | keep (hs : e.post.state = e.pre.state) (ht : e.post.timers.heartbeat = e.pre.timers.heartbeat)
      (ho : ¬ Entry.OwnHeartbeat e) (hm : e.pre.state = .slave → ¬ Entry.HeardMaster e)
  | rearm (hs : e.post.state = .slave)
      (ht : ∃ n < 2000, e.post.timers.heartbeat = Entry.time e + BitVec.ofNat 32 (5000 + n) ∧
        (e.pre.state = .slave → n = e.pre.rand 0 % 2000))
      (ho : ¬ Entry.OwnHeartbeat e) (hm : Entry.HeardMaster e)
  | takeOver (hs : e.pre.state = .slave) (hs' : e.post.state = .master)
      (h0 : e.pre.timers.heartbeat ≠ 0) (h1 : e.pre.timers.heartbeat < Entry.time e)
      (ht : e.post.timers.heartbeat = Entry.time e + 1000)
      (ho : Entry.OwnHeartbeat e) (hm : ¬ Entry.HeardMaster e)
  | beat (hs : e.pre.state = .master) (hs' : e.post.state = .master)
      (h0 : e.pre.timers.heartbeat ≠ 0) (h1 : e.pre.timers.heartbeat < Entry.time e)
      (ht : e.post.timers.heartbeat = Entry.time e + 1000)
      (ho : Entry.OwnHeartbeat e) (hm : ¬ Entry.HeardMaster e)

theorem hb_stepW {plat op} {s s' : Node} (wf : s.WF) (hi : IsInstruction s.setEffectPacket)
    (h : Op.step plat op s = .ok s') :
    HbStepW ⟨s, op, s'⟩ := by
  cases op with
  | radioTick now rx =>
    have hh := fun x => heard_tick (s' := x) (now := now) (rx := rx) wf
    have hx := timerExpired_heartbeat (now := now) wf
    cases radioTick_cases wf h
    case slaveQuiet hd hs ht =>
      refine .keep (by simp) (by simp) ?_ ?_
      · simp [Entry.OwnHeartbeat, Entry.transmitted]
      · simp [Entry.HeardMaster, hh, hd]
    case masterQuiet hd hs ht =>
      refine .keep (by simp) (by simp) ?_ ?_
      · simp [Entry.OwnHeartbeat, Entry.transmitted]
      · simp [Entry.HeardMaster, hh, hd]
    case takeOver hd hs ht =>
      refine .takeOver hs rfl (hx.1 ht).1 (hx.1 ht).2 rfl ?_ ?_
      · simp [Entry.OwnHeartbeat, Entry.IsTick, Entry.transmitted, hh, hd, Packet.writeHeartbeat]
      · simp [Entry.HeardMaster, hh, hd]
    case beat hd hs ht =>
      refine .beat hs hs (hx.1 ht).1 (hx.1 ht).2 rfl ?_ ?_
      · simp [Entry.OwnHeartbeat, Entry.IsTick, Entry.transmitted, hh, hd, Packet.writeHeartbeat]
      · simp [Entry.HeardMaster, hh, hd]
    case change hd hs ht _ _ _ _ _ _ =>
      refine .keep (by simp) (by simp) ?_ ?_
      · simp [Entry.OwnHeartbeat, Entry.transmitted, Packet.writeSetEffect]
      · simp [Entry.HeardMaster, hh, hd]
    case «repeat» hd hs ht =>
      refine .keep (by simp) (by simp) ?_ ?_
      · simp only [Entry.OwnHeartbeat, Entry.transmitted, IsInstruction] at hi ⊢
        simp
        intro _ _ h
        simp [h] at hi
      · simp [Entry.HeardMaster, hh, hd]
    case slaveHeartbeat p hd hs hp hl =>
      refine .rearm hs ?_ ?_ ?_
      · exact ⟨s.rand 0 % 2000, by omega, by rw [armSlaveTimeout_timers]; rfl, fun _ => rfl⟩
      · simp [Entry.OwnHeartbeat, hh, hd]
      · simp [Entry.HeardMaster, hh, hd, hp]
    case slaveClaim p hd hs hp =>
      refine .rearm hs ?_ ?_ ?_
      · exact ⟨s.rand 0 % 2000, by omega, by rw [armSlaveTimeout_timers]; rfl, fun _ => rfl⟩
      · simp [Entry.OwnHeartbeat, hh, hd]
      · simp [Entry.HeardMaster, hh, hd, hp]
    case electionLost p hd hs hp he =>
      refine .rearm rfl ?_ ?_ ?_
      · exact ⟨_, Nat.mod_lt _ (by decide), by rw [afterBeginSlave_timers]; rfl, fun k => absurd k (by simp [hs])⟩
      · simp [Entry.OwnHeartbeat, hh, hd]
      · simp [Entry.HeardMaster, hh, hd, hp]
    case masterClaim p hd hs hp =>
      refine .rearm rfl ?_ ?_ ?_
      · exact ⟨_, Nat.mod_lt _ (by decide), by rw [afterBeginSlave_timers]; rfl, fun k => absurd k (by simp [hs])⟩
      · simp [Entry.OwnHeartbeat, hh, hd]
      · simp [Entry.HeardMaster, hh, hd, hp]
    case electionWon p hd hs hp he =>
      refine .keep (by simp) (by simp) ?_ ?_
      · simp [Entry.OwnHeartbeat, hh, hd]
      · simp [hs]
    case slaveEffect p hd hs hp hl =>
      refine .keep (by simp) (by simp) ?_ ?_
      · simp [Entry.OwnHeartbeat, hh, hd]
      · simp [Entry.HeardMaster, hh, hd, hp]
    case slaveControl p hd hs hp =>
      refine .keep (by simp) (by simp) ?_ ?_
      · simp [Entry.OwnHeartbeat, hh, hd]
      · simp [Entry.HeardMaster, hh, hd, hp]
    case other p n hn hd hp =>
      refine .keep (by simp) (by simp) ?_ ?_
      · simp [Entry.OwnHeartbeat, hh, hd]
      · simp [Entry.HeardMaster, hh, hd, hp]
    case masterEffect p hd hs hp hl =>
      refine .keep (by simp) (by simp [Timers.set]) ?_ ?_
      · simp [Entry.OwnHeartbeat, hh, hd]
      · simp [Entry.HeardMaster, hh, hd, hp]
    case masterControl p hd hs hp hl =>
      refine .keep (by simp) (by simp [Timers.set]) ?_ ?_
      · simp [Entry.OwnHeartbeat, hh, hd]
      · simp [Entry.HeardMaster, hh, hd, hp]
  | setEffect now p =>
    simp only [Op.step] at h
    rw [setEffect_eq wf.idx] at h
    split at h
    · cases h
    · cases h
      refine .keep rfl rfl ?_ ?_
      · simp [Entry.OwnHeartbeat, Entry.IsTick]
      · simp [Entry.HeardMaster, Entry.heard]
  | setNumPalettes now n =>
    cases h
    refine .keep rfl rfl ?_ ?_
    · simp [Entry.OwnHeartbeat, Entry.IsTick]
    · simp [Entry.HeardMaster, Entry.heard]
  | setNumEffects now n =>
    cases h
    refine .keep rfl rfl ?_ ?_
    · simp [Entry.OwnHeartbeat, Entry.IsTick]
    · simp [Entry.HeardMaster, Entry.heard]
  | endTick now =>
    cases h
    refine .keep rfl rfl ?_ ?_
    · simp [Entry.OwnHeartbeat, Entry.IsTick]
    · simp [Entry.HeardMaster, Entry.heard]

end Node

/-- A time-out that reaches beyond the wrap-around is small afterwards. -/
theorem wrapped {t d : U32} (h : 2 ^ 32 < t.toNat + d.toNat) :
    (t + d).toNat = t.toNat + d.toNat - 2 ^ 32 := by
  have := t.isLt
  have := d.isLt
  rw [BitVec.toNat_add]
  omega

theorem wrapped_due {t d now : U32} (h : 2 ^ 32 < t.toNat + d.toNat) (hd : d.toNat ≤ 2 ^ 31)
    (hn : t ≤ now) : t + d ≠ 0 ∧ t + d < now := by
  have e := wrapped h
  have := t.isLt
  rw [BitVec.le_def] at hn
  refine ⟨fun k => ?_, ?_⟩
  · rw [k] at e
    have z : (0 : U32).toNat = 0 := rfl
    omega
  · rw [BitVec.lt_def, e]
    omega

/-- What a master does in a radio tick in which it hears nothing. -/
theorem quiet_reign {plat op} {s s' : Node} (wf : s.WF) (h : Op.step plat op s = .ok s')
    (q : QuietReign ⟨s, op, s'⟩) : s'.state = .master ∧
    ((s.timers.heartbeat ≠ 0 ∧ s.timers.heartbeat < op.time) → Entry.OwnHeartbeat ⟨s, op, s'⟩ ∧
      s'.timers.heartbeat = op.time + 1000 ∧ s'.timers.changeEffect = s.timers.changeEffect) ∧
    (¬ (s.timers.heartbeat ≠ 0 ∧ s.timers.heartbeat < op.time) →
      s'.timers.heartbeat = s.timers.heartbeat ∧
      (s.timers.changeEffect ≠ 0 ∧ s.timers.changeEffect < op.time →
        (∃ q, FreshChoice plat ⟨s, op, s'⟩ q) ∧ s'.timers.changeEffect = op.time + 60000)) := by
  obtain ⟨⟨now, rx, ho⟩, hq, hm₀⟩ := q
  simp only at ho
  subst ho
  rw [heard_tick wf] at hq
  have hm : s.state = .master := hm₀
  have hx := Node.timerExpired_heartbeat (now := now) wf
  change s'.state = .master ∧ ((s.timers.heartbeat ≠ 0 ∧ s.timers.heartbeat < now) → _ ∧
      s'.timers.heartbeat = now + 1000 ∧ _) ∧ (¬ (s.timers.heartbeat ≠ 0 ∧ s.timers.heartbeat < now) →
      _ ∧ (s.timers.changeEffect ≠ 0 ∧ s.timers.changeEffect < now →
        _ ∧ s'.timers.changeEffect = now + 60000))
  have first : ∀ {t}, s.timerExpired now = t → t ≠ .changeEffect →
      ¬ (s.timers.heartbeat ≠ 0 ∧ s.timers.heartbeat < now) →
      ¬ (s.timers.changeEffect ≠ 0 ∧ s.timers.changeEffect < now) := by
    intro t ht hne hb hc
    rw [Node.timerExpired, if_neg (by simp [wf.timerNone]), if_neg hb, if_pos hc] at ht
    exact hne ht.symm
  rw [← hx]
  cases Node.radioTick_cases wf h with
  | masterQuiet _ _ ht =>
    refine ⟨hm, fun k => ?_, fun k => ⟨rfl, fun c => absurd c (first ht (by decide) (fun c => k (hx.2 c)))⟩⟩
    rw [ht] at k; cases k
  | beat hd _ ht =>
    refine ⟨hm, fun _ => ⟨?_, rfl, rfl⟩, fun k => absurd ht k⟩
    simp [Entry.OwnHeartbeat, Entry.IsTick, Entry.transmitted, heard_tick wf, hd, Packet.writeHeartbeat]
  | change hd _ ht e pal r r' he hp =>
    refine ⟨hm, fun k => ?_, fun k => ⟨by rw [Node.afterChange_timers], fun _ => ⟨?_, by
      rw [Node.afterChange_timers]; rfl⟩⟩⟩
    · rw [ht] at k; cases k
    · exact ⟨_, freshChoice_tick wf hd hm he hp⟩
  | «repeat» _ _ ht =>
    refine ⟨hm, fun k => ?_, fun k => ⟨rfl, fun c => absurd c (first ht (by decide) (fun c => k (hx.2 c)))⟩⟩
    rw [ht] at k; cases k
  | slaveQuiet _ e | takeOver _ e => rw [hm] at e; cases e
  | slaveHeartbeat _ e | slaveClaim _ e | slaveEffect _ e | slaveControl _ e | other _ _ _ e
  | electionWon _ e | electionLost _ e | masterClaim _ e | masterEffect _ e | masterControl _ e =>
    rw [hq] at e; cases e

end Firefly
