import Verif.Lemmas.History
import Verif.Spec.Instruction

/-! # What a step does to the instruction and to the rotation and repetition timers -/

set_option linter.unusedSimpArgs false

namespace Firefly
open Spec

theorem Spec.SameContent.refl {p : Packet} : SameContent p p := ⟨rfl, rfl, rfl⟩
theorem Spec.SameContent.symm {p q : Packet} (h : SameContent p q) : SameContent q p :=
  ⟨h.1.symm, h.2.1.symm, h.2.2.symm⟩
theorem Spec.SameContent.trans {p q r : Packet} (h : SameContent p q) (h' : SameContent q r) :
    SameContent p r := ⟨h.1.trans h'.1, h.2.1.trans h'.2.1, h.2.2.trans h'.2.2⟩

/-- Deadline armed by a delay in seconds (0: disabled). -/
def deadline (now : U32) (d : U8) : U32 := if d = 0 then 0 else now + d.setWidth 32 * 1000

theorem deadline_eq (now : U32) (d : U8) :
    (if d.setWidth 32 * (1000 : U32) = 0 then 0 else now + d.setWidth 32 * 1000) =
      deadline now d := by
  unfold deadline
  by_cases h : d = 0
  · subst h; rfl
  · rw [if_neg h, if_neg (Node.delay_ne_zero h)]

/-- What one step does, as far as instructions are concerned. -/
inductive InStep (plat : Platform) (op : Op) (s s' : Node) : Prop
  | keep (hu : Untold ⟨s, op, s'⟩)
      (hst : s'.state = s.state ∨ (s.state = .master ∧ s'.state = .slave))
      (hc : s'.setEffectPacket = s.setEffectPacket) (hi : s'.effectIndex = s.effectIndex)
      (hce : s'.timers.changeEffect = s.timers.changeEffect)
      (hbc : s'.timers.broadcastEffect = s.timers.broadcastEffect)
      (hseen : s'.effectChangeSeenAt = s.effectChangeSeenAt)
      (htx : ∀ q ∈ Entry.transmitted ⟨s, op, s'⟩, ¬ IsInstruction q)
  | takeOver (hu : Untold ⟨s, op, s'⟩) (hs : s.state = .slave) (hs' : s'.state = .master)
      (hh : Entry.heard ⟨s, op, s'⟩ = none)
      (hc : s'.setEffectPacket = s.setEffectPacket) (hi : s'.effectIndex = s.effectIndex)
      (hce : s'.timers.changeEffect =
        if Node.takeoverDelay op.time s.effectChangeSeenAt = 0 then 0
        else op.time + Node.takeoverDelay op.time s.effectChangeSeenAt)
      (hbc : s'.timers.broadcastEffect = op.time + 2000)
      (hseen : s'.effectChangeSeenAt = s.effectChangeSeenAt)
      (htx : ∀ q ∈ Entry.transmitted ⟨s, op, s'⟩, ¬ IsInstruction q)
  | locally (p : Packet) (hop : op = .setEffect op.time p) (hst : s'.state = s.state)
      (hc : SameContent s'.setEffectPacket p) (hi : s'.effectIndex = p.data[0])
      (hce : s'.timers.changeEffect = op.time +
        (if p.data[1] = 0 then (60000 : U32) else p.data[1].setWidth 32 * 1000))
      (hbc : s'.timers.broadcastEffect = s.timers.broadcastEffect)
      (hseen : s'.effectChangeSeenAt = s.effectChangeSeenAt)
      (htx : Entry.transmitted ⟨s, op, s'⟩ = [s'.setEffectPacket])
  | slaveHeard (p : Packet) (hh : Entry.heard ⟨s, op, s'⟩ = some p) (hp : IsInstruction p)
      (hs : s.state = .slave) (hs' : s'.state = .slave)
      (hc : s'.setEffectPacket = p)
      (hi : s'.effectIndex = if p.type = .setEffect then p.data[0] else s.effectIndex)
      (hce : s'.timers.changeEffect = s.timers.changeEffect)
      (hbc : s'.timers.broadcastEffect = s.timers.broadcastEffect)
      (hseen : s'.effectChangeSeenAt =
        if p.type = .setControl ∨ (p.data[0].toNat : Int) ≠ s.effectIndex.toInt ∨
          p.data[2] ≠ s.setEffectPacket.data[2] then op.time else s.effectChangeSeenAt)
      (htx : Entry.transmitted ⟨s, op, s'⟩ = [p])
  | masterHeard (p : Packet) (hh : Entry.heard ⟨s, op, s'⟩ = some p) (hp : IsInstruction p)
      (hs : s.state = .master) (hs' : s'.state = .master)
      (hc : s'.setEffectPacket = p)
      (hi : s'.effectIndex = if p.type = .setEffect then p.data[0] else s.effectIndex)
      (hce : s'.timers.changeEffect =
        deadline op.time (if p.type = .setEffect then p.data[1] else p.data[0]))
      (hbc : s'.timers.broadcastEffect = s.timers.broadcastEffect)
      (hseen : s'.effectChangeSeenAt = s.effectChangeSeenAt)
      (htx : Entry.transmitted ⟨s, op, s'⟩ = [p])
  | change (q : Packet) (hf : FreshChoice plat ⟨s, op, s'⟩ q)
      (hs : s.state = .master) (hs' : s'.state = .master)
      (h0 : s.timers.changeEffect ≠ 0) (h1 : s.timers.changeEffect < op.time)
      (hce : s'.timers.changeEffect = op.time + 60000)
      (hbc : s'.timers.broadcastEffect = s.timers.broadcastEffect)
      (hseen : s'.effectChangeSeenAt = s.effectChangeSeenAt)
  | repeats (q : Packet) (hf : Repeats ⟨s, op, s'⟩ q) (hq : s'.setEffectPacket = q)
      (hs : s.state = .master) (hs' : s'.state = .master)
      (h0 : s.timers.broadcastEffect ≠ 0) (h1 : s.timers.broadcastEffect < op.time)
      (hce : s'.timers.changeEffect = s.timers.changeEffect)
      (hbc : s'.timers.broadcastEffect = op.time + 2000)
      (hseen : s'.effectChangeSeenAt = s.effectChangeSeenAt)

theorem Node.timerExpired_change {now} {s : Node} (wf : s.WF)
    (h : s.timerExpired now = .changeEffect) :
    s.timers.changeEffect ≠ 0 ∧ s.timers.changeEffect < now := by
  simp only [Node.timerExpired, wf.timerNone] at h
  simp at h
  grind

theorem Node.timerExpired_broadcast {now} {s : Node} (wf : s.WF)
    (h : s.timerExpired now = .broadcastEffect) :
    s.timers.broadcastEffect ≠ 0 ∧ s.timers.broadcastEffect < now := by
  simp only [Node.timerExpired, wf.timerNone] at h
  simp at h
  grind

theorem in_step {plat op} {s s' : Node} (wf : s.WF) (h : Op.step plat op s = .ok s') :
    InStep plat op s s' := by
  cases op with
  | radioTick now rx =>
    have hh := fun x => heard_tick (s' := x) (now := now) (rx := rx) wf
    cases Node.radioTick_cases wf h
    case slaveQuiet hd hs ht =>
      refine .keep ?_ ?_ ?_ ?_ ?_ ?_ ?_ ?_ <;>
        simp [Untold, hh, hd, Entry.transmitted, IsInstruction]
    case masterQuiet hd hs ht =>
      refine .keep ?_ ?_ ?_ ?_ ?_ ?_ ?_ ?_ <;>
        simp [Untold, hh, hd, Entry.transmitted, IsInstruction]
    case takeOver hd hs ht =>
      refine .takeOver ?_ hs rfl ?_ ?_ ?_ rfl ?_ ?_ ?_ <;>
        simp [Untold, hh, hd, Entry.transmitted, IsInstruction, Packet.writeHeartbeat,
          kBroadcastEffectInterval, Op.time]
    case beat hd hs ht =>
      refine .keep ?_ ?_ ?_ ?_ ?_ ?_ ?_ ?_ <;>
        simp [Untold, hh, hd, Entry.transmitted, IsInstruction, Packet.writeHeartbeat]
    case change hd hs ht e pal r r' he hp =>
      refine .change { s.packet.writeSetEffect (e.setWidth 8) 0 (pal.setWidth 8) with
        id := sendId plat r' } ?_ hs hs (Node.timerExpired_change wf ht).1
        (Node.timerExpired_change wf ht).2 ?_ ?_ ?_
      · refine ⟨⟨_, _, rfl⟩, hs, by rw [hh, hd], by simp [Entry.transmitted], rfl, rfl, ?_,
          ⟨e, pal, r, r', he, hp, ?_, ?_⟩, ?_, ?_⟩ <;>
          simp [Packet.writeSetEffect, SameContent, Node.getSetEffect, Node.getEffectIndex]
      all_goals simp [kChangeEffectInterval, Op.time]
    case «repeat» hd hs ht =>
      refine .repeats (Node.stamped plat s.setEffectPacket s) ?_ rfl hs hs
        (Node.timerExpired_broadcast wf ht).1 (Node.timerExpired_broadcast wf ht).2 ?_ ?_ ?_
      · refine ⟨⟨_, _, rfl⟩, hs, by rw [hh, hd], by simp [Entry.transmitted], ?_, ?_, ?_⟩ <;>
          simp [SameContent, Node.getSetEffect, Node.getEffectIndex]
      all_goals simp [kBroadcastEffectInterval, Op.time]
    case slaveHeartbeat p hd hs hp hl =>
      refine .keep ?_ ?_ ?_ ?_ ?_ ?_ ?_ ?_ <;>
        simp [Untold, hh, hd, hp, Entry.transmitted, IsInstruction]
    case slaveClaim p hd hs hp =>
      refine .keep ?_ ?_ ?_ ?_ ?_ ?_ ?_ ?_ <;>
        simp [Untold, hh, hd, hp, Entry.transmitted, IsInstruction]
    case electionLost p hd hs hp he =>
      refine .keep ?_ ?_ ?_ ?_ ?_ ?_ ?_ ?_ <;>
        simp [Untold, hh, hd, hp, hs, Entry.transmitted, IsInstruction]
    case masterClaim p hd hs hp =>
      refine .keep ?_ ?_ ?_ ?_ ?_ ?_ ?_ ?_ <;>
        simp [Untold, hh, hd, hp, hs, Entry.transmitted, IsInstruction]
    case electionWon p hd hs hp he =>
      refine .keep ?_ ?_ ?_ ?_ ?_ ?_ ?_ ?_ <;>
        simp [Untold, hh, hd, hp, hs, Entry.transmitted, IsInstruction]
    case other p n hn hd hp =>
      refine .keep ?_ ?_ ?_ ?_ ?_ ?_ ?_ ?_ <;>
        simp [Untold, hh, hd, hp, Entry.transmitted, IsInstruction]
    case slaveEffect p hd hs hp hl =>
      refine .slaveHeard p (by rw [hh, hd]) (Or.inl hp) hs ?_ ?_ ?_ ?_ ?_ ?_ ?_ <;>
        simp [hs, hp, Op.time, Entry.transmitted]
    case slaveControl p hd hs hp =>
      refine .slaveHeard p (by rw [hh, hd]) (Or.inr hp) hs ?_ ?_ ?_ ?_ ?_ ?_ ?_ <;>
        simp [hs, hp, Op.time, Entry.transmitted]
    case masterEffect p hd hs hp hl =>
      refine .masterHeard p (by rw [hh, hd]) (Or.inl hp) hs ?_ ?_ ?_ ?_ ?_ ?_ ?_ <;>
        simp [hs, hp, Op.time, Entry.transmitted, Timers.set]
      exact deadline_eq now p.data[1]
    case masterControl p hd hs hp hl =>
      refine .masterHeard p (by rw [hh, hd]) (Or.inr hp) hs ?_ ?_ ?_ ?_ ?_ ?_ ?_ <;>
        simp [hs, hp, Op.time, Entry.transmitted, Timers.set]
      exact deadline_eq now p.data[0]
  | setEffect now p =>
    simp only [Op.step] at h
    rw [Node.setEffect_eq wf.idx] at h
    split at h
    · cases h
    · cases h
      refine .locally p rfl rfl ⟨rfl, rfl, rfl⟩ rfl rfl rfl rfl ?_
      simp [Entry.transmitted, Node.afterSetEffect]
  | setNumPalettes now n =>
    cases h
    exact .keep ⟨by simp, by simp [Entry.heard]⟩ (Or.inl rfl) rfl rfl rfl rfl rfl
      (by simp [Entry.transmitted, Node.setNumPalettes])
  | setNumEffects now n =>
    cases h
    exact .keep ⟨by simp, by simp [Entry.heard]⟩ (Or.inl rfl) rfl rfl rfl rfl rfl
      (by simp [Entry.transmitted, Node.setNumEffects])
  | endTick now =>
    cases h
    exact .keep ⟨by simp, by simp [Entry.heard]⟩ (Or.inl rfl) rfl rfl rfl rfl rfl
      (by simp [Entry.transmitted])

end Firefly
