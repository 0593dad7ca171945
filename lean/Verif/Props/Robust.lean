import Verif.Props.Repetition
import Verif.Lemmas.MeshNet

/-! # Robustness of the networking core (C33–C37, C42) -/

namespace Firefly.Props
open Spec

/-! ### C33 -/

/-- C33.  In the Arduino build no operation of a device that went through any history — any
packets (any type byte, length byte and payload), ticks, local calls, times — faults, so every
history can go on. -/
theorem arduino_never_faults {t₀ h s} (r : Run .arduino t₀ h s) (op : Op) :
    ∃ s', op.step .arduino s = .ok s' := by
  cases op with
  | radioTick now rx =>
    rcases Node.radioTick_result (plat := .arduino) (now := now) (rx := rx) r.wf with
      ⟨s', h2, _⟩ | ⟨h, _⟩ | ⟨h, _⟩
    · exact ⟨s', h2⟩
    · cases h
    · cases h
  | setEffect now p =>
    exact ⟨Node.afterSetEffect .arduino now p s, by
      rw [Op.step, Node.setEffect_eq r.wf.idx, if_neg (by simp)]⟩
  | setNumPalettes now n => exact ⟨_, rfl⟩
  | setNumEffects now n => exact ⟨_, rfl⟩
  | endTick now => exact ⟨_, rfl⟩

/-- C33.  A packet of unknown type is re-broadcast as it is and changes nothing else in the
device but the duplicate filter, in either build. -/
theorem unknown_type_is_inert {plat t₀ h s} (r : Run plat t₀ h s) {rx p} (hp : Hears s rx p)
    {n hn} (ht : p.type = .other n hn) (now : U32) :
    ∃ m, s.nm.receive rx = .ok (some p, [p], m) ∧
      s.radioTick plat now rx = .ok { s with nm := m, sent := s.sent ++ [p] } := by
  have hd := hp.delivered r.wf
  refine ⟨_, Node.receive_some r.wf.idx hd, ?_⟩
  rcases Node.radioTick_result (plat := plat) (now := now) (rx := rx) r.wf with
    ⟨s', h2, h3⟩ | ⟨_, _, q, hq, ha⟩ | ⟨_, _, h, _⟩
  · rw [h2]
    cases h3 <;> simp_all [Node.afterAccept]
  · rw [hd] at hq; cases hq
    simp [Node.PacketAborts, ht] at ha
  · rw [hd] at h; cases h

/-- Every packet whose id is not one of the last five is heard, e.g. one with type byte 200 by a
device that has just been powered on. -/
example : ∃ s p, Run .arduino 0 [] s ∧ Hears s (some p) p ∧
    p.type = .other 200 (by decide) ∧ p.len = 255 := by
  refine ⟨Demo.node, ⟨9, .other 200 (by decide), 255, Vector.replicate 58 77⟩,
    ⟨_, _, _, .nil⟩, ?_, rfl, rfl⟩
  exact hears_of_delivered .init (by decide +kernel)

/-! ### C34 -/

/-- The packets on which a device with asserts enabled aborts: the length does not fit the type
(heartbeats are only looked at by slaves, the length of control packets only by masters), or a
set-effect packet repeats the current effect number (as a signed byte) to a slave whose current
instruction is not a well-formed set-effect packet. -/
def Unacceptable (s : Node) (p : Packet) : Prop :=
  (p.type = .heartbeat ∧ s.getCurrentState = .slave ∧ p.len ≠ 4) ∨
  (p.type = .setEffect ∧ p.len ≠ 3) ∨
  (p.type = .setControl ∧ s.getCurrentState = .master ∧ p.len ≠ 4) ∨
  (p.type = .setEffect ∧ s.getCurrentState = .slave ∧
    (p.data[0].toNat < 128 ∧ p.data[0] = s.getEffectIndex) ∧
    ¬ (s.getSetEffect.type = .setEffect ∧ s.getSetEffect.len = 3))

theorem unacceptable_iff {s : Node} {p : Packet} : Unacceptable s p ↔ Node.PacketAborts s p := by
  have key : ((p.data[0].toNat : Int) = s.effectIndex.toInt) ↔
      (p.data[0].toNat < 128 ∧ p.data[0] = s.effectIndex) := by
    constructor
    · intro h
      have h1 : s.effectIndex.toInt < 128 := by
        have := @BitVec.toInt_lt 8 s.effectIndex; simpa using this
      have h2 : p.data[0].toNat < 128 := by omega
      refine ⟨h2, Classical.byContradiction fun h3 => ?_⟩
      exact (small_ne_iff h2).2 h3 h
    · rintro ⟨h1, h2⟩
      exact Classical.byContradiction fun h3 => (small_ne_iff h1).1 h3 h2
  unfold Unacceptable Node.PacketAborts Node.getCurrentState Node.getEffectIndex Node.getSetEffect
  rw [key]

/-- C34.  In the assert-enabled (host) build a radio tick aborts exactly if it hears an
unacceptable packet. -/
theorem host_aborts_iff {t₀ h s} (r : Run .host t₀ h s) (now : U32) (rx : Option Packet) :
    s.radioTick .host now rx = .error .assertFail ↔ ∃ p, Hears s rx p ∧ Unacceptable s p := by
  have wf := r.wf
  constructor
  · intro he
    rcases Node.radioTick_result (plat := .host) (now := now) (rx := rx) wf with
      ⟨s', h2, _⟩ | ⟨_, _, q, hq, ha⟩ | ⟨_, h, _⟩
    · rw [he] at h2; cases h2
    · exact ⟨q, hears_of_delivered wf hq, unacceptable_iff.2 ha⟩
    · rw [he] at h; cases h
  · rintro ⟨p, hp, hu⟩
    have hd := hp.delivered wf
    have hu := unacceptable_iff.1 hu
    rcases Node.radioTick_result (plat := .host) (now := now) (rx := rx) wf with
      ⟨s', h2, h3⟩ | ⟨_, h, _⟩ | ⟨_, _, h, _⟩
    · exfalso
      cases h3 <;> simp_all [Node.PacketAborts]
    · exact h
    · rw [hd] at h; cases h

/-- C34.  The only other fault of a radio tick, in either build: on the host, a master choosing an
effect while the configured number of effects or palettes is 0 (`rand() % 0`). -/
theorem other_fault {plat t₀ h s} (r : Run plat t₀ h s) {now rx f}
    (he : s.radioTick plat now rx = .error f) (hf : f ≠ .assertFail) :
    f = .divByZero ∧ plat = .host ∧ Quiet s rx ∧ s.getCurrentState = .master ∧
      (s.numEffects = 0 ∨ s.numPalettes = 0) := by
  have wf := r.wf
  rcases Node.radioTick_result (plat := plat) (now := now) (rx := rx) wf with
    ⟨s', h2, _⟩ | ⟨_, h, _⟩ | ⟨h1, h2, h3, h4, _, h5⟩
  · rw [he] at h2; cases h2
  · rw [he] at h; cases h; exact absurd rfl hf
  · rw [he] at h2; cases h2
    exact ⟨rfl, h1, ⟨_, _, Node.receive_none h3⟩, h4, h5⟩

/-- Both kinds of unacceptable packet occur: a heartbeat of length 3, and a set-effect packet
for effect 0 to a slave that has just heard a control packet. -/
example : (∃ s rx p, Run .host 0 [] s ∧ Hears s rx p ∧ Unacceptable s p ∧ p.type = .heartbeat) ∧
    (∃ h s rx p, Run .host 0 h s ∧ Hears s rx p ∧ Unacceptable s p ∧ p.type = .setEffect ∧
      p.len = 3) := by
  constructor
  · refine ⟨Demo.node, some ⟨9, .heartbeat, 3, Vector.replicate 58 0⟩,
      ⟨9, .heartbeat, 3, Vector.replicate 58 0⟩, ⟨_, _, _, .nil⟩,
      hears_of_delivered .init (by decide +kernel), Or.inl ⟨rfl, rfl, by decide⟩, rfl⟩
  · obtain ⟨h, s, r, hc⟩ := run_of_check (plat := .host) (t₀ := 0) (rand := fun n => n)
      (ops := [.radioTick 100 (some ⟨99, .setControl, 4, Vector.replicate 58 0⟩)])
      (fun _ s => decide (s.delivered (some ⟨98, .setEffect, 3, Vector.replicate 58 0⟩) =
          some ⟨98, .setEffect, 3, Vector.replicate 58 0⟩) &&
        decide (s.getCurrentState = .slave ∧ s.getEffectIndex = 0 ∧
          s.getSetEffect.type = .setControl)) (by decide +kernel)
    simp only [Bool.and_eq_true, decide_eq_true_eq] at hc
    obtain ⟨h1, h2, h3, h4⟩ := hc
    refine ⟨h, s, _, ⟨98, .setEffect, 3, Vector.replicate 58 0⟩, r, hears_of_delivered r.wf h1,
      Or.inr (Or.inr (Or.inr ⟨rfl, h2, ⟨by decide +kernel, by rw [h3]; decide +kernel⟩, ?_⟩)), rfl,
      rfl⟩
    rw [h4]; simp

/-! ### C35 -/

/-- C35.  One radio tick handles either one packet or at most one timer: hearing nothing it
transmits at most one packet; hearing a packet it transmits that packet and, only when a master
answers a heartbeat, one claim.  After it the device is settled: no role change is pending. -/
theorem bounded_work {plat t₀ h s} (r : Run plat t₀ h s) {now rx s'}
    (ht : s.radioTick plat now rx = .ok s') :
    (Quiet s rx → (Entry.transmitted ⟨s, .radioTick now rx, s'⟩).length ≤ 1) ∧
    (∀ p, Hears s rx p → Entry.transmitted ⟨s, .radioTick now rx, s'⟩ = [p] ∨
      ∃ c, Entry.transmitted ⟨s, .radioTick now rx, s'⟩ = [p, c] ∧ c.type = .claimMaster ∧
        p.type = .heartbeat ∧ s.getCurrentState = .master ∧ s'.getCurrentState = .master) ∧
    s'.sent = s.sent ++ Entry.transmitted ⟨s, .radioTick now rx, s'⟩ ∧ s'.next = s'.state := by
  have wf := r.wf
  have wf' : s'.WF := Node.step_wf (op := .radioTick now rx) wf ht
  refine ⟨fun hq => ?_, fun p hp => ?_, ?_, wf'.next⟩
  · have hd := hq.delivered wf
    cases Node.radioTick_cases wf ht <;> simp_all [Entry.transmitted]
  · have hd := hp.delivered wf
    cases Node.radioTick_cases wf ht <;>
      simp_all [Entry.transmitted, Node.getCurrentState, Node.setTimer, Node.afterAccept]
  · cases Node.radioTick_cases wf ht <;> simp [Entry.transmitted, Node.setTimer, Node.afterAccept]

/-- C35.  A whole `Tick` call (up to two radio ticks) transmits at most four packets. -/
theorem bounded_tick {plat t₀ h s} (r : Run plat t₀ h s) {now₁ rx₁ now₂ rx₂ s'}
    (ht : s.tick plat now₁ rx₁ now₂ rx₂ = .ok s') :
    ∃ l, s'.sent = s.sent ++ l ∧ l.length ≤ 4 := by
  have key : ∀ {h s}, Run plat t₀ h s → ∀ {now rx s'}, s.radioTick plat now rx = .ok s' →
      ∃ l, s'.sent = s.sent ++ l ∧ l.length ≤ 2 := by
    intro h s r now rx s' ht
    obtain ⟨h1, h2, h3, _⟩ := bounded_work r ht
    refine ⟨_, h3, ?_⟩
    cases hd : s.delivered rx with
    | none => exact Nat.le_succ_of_le (h1 ⟨_, _, Node.receive_none hd⟩)
    | some p =>
      rcases h2 p (hears_of_delivered r.wf hd) with h | ⟨c, h, _⟩ <;> rw [h] <;> simp
  obtain ⟨s₁, h1, ⟨_, h2⟩ | ⟨_, s₂, h2, h3⟩⟩ := Node.tick_eq_ops.1 ht
  · obtain ⟨l, e, hl⟩ := key r h1
    simp only [Op.step, Except.ok.injEq] at h2
    exact ⟨l, by rw [← h2]; exact e, by omega⟩
  · obtain ⟨l, e, hl⟩ := key r h1
    obtain ⟨rand, j, j', x⟩ := r
    obtain ⟨l', e', hl'⟩ := key ⟨rand, j, j', .cons _ x h1⟩ h2
    simp only [Op.step, Except.ok.injEq] at h3
    exact ⟨l ++ l', by rw [← h3]; simp only; rw [e', e, List.append_assoc], by simp; omega⟩

/-! ### C36 -/

/-- Timer `t` is due at local time `now`. -/
def Due (s : Node) (t : TimerType) (now : U32) : Prop :=
  s.timers.get t ≠ 0 ∧ s.timers.get t < now

/-- The steps that may re-arm or serve a timer.  Heartbeat timer: hearing a heartbeat or claim
(including the demotions they cause), taking over, sending the own heartbeat.  Rotation: an
instruction heard or given locally, taking over, the own fresh choice.  Repetition: taking
over, repeating. -/
def Touches (plat : Platform) (t : TimerType) (e : Entry) : Prop :=
  match t with
  | .none => False
  | .heartbeat => Entry.HeardMaster e ∨ Entry.Promoted e ∨ Entry.OwnHeartbeat e
  | .changeEffect => (∃ p, Instructs plat e p) ∨ Entry.Promoted e
  | .broadcastEffect => Entry.Promoted e ∨ ∃ q, Repeats e q

theorem timer_step {plat op} {s s' : Node} (wf : s.WF) (hst : Op.step plat op s = .ok s')
    {t : TimerType} (hn : ¬ Touches plat t ⟨s, op, s'⟩) :
    s'.timers.get t = s.timers.get t := by
  cases t with
  | none =>
    have h1 := wf.timerNone
    have h2 := (Node.step_wf wf hst).timerNone
    simp only [Timers.get]; rw [h1, h2]
  | heartbeat =>
    have hh := fun x now rx => heard_tick (s := s) (s' := x) (now := now) (rx := rx) wf
    simp only [Touches, Entry.HeardMaster, Entry.Promoted, Entry.OwnHeartbeat, Entry.IsTick] at hn
    cases op with
    | radioTick now rx =>
      simp only [hh] at hn
      cases Node.radioTick_cases wf hst <;>
        simp_all [Timers.get, Entry.transmitted, Node.getCurrentState, Node.setTimer, Timers.set]
      exact absurd rfl hn
    | setEffect now p =>
      simp only [Op.step, Node.setEffect_eq wf.idx] at hst
      split at hst
      · cases hst
      · cases hst; rfl
    | setNumPalettes now n => cases hst; rfl
    | setNumEffects now n => cases hst; rfl
    | endTick now => cases hst; rfl
  | changeEffect =>
    simp only [Touches, not_or] at hn
    cases in_step wf hst with
    | keep _ _ _ _ hce => exact hce
    | takeOver _ hs hs' => exact absurd ⟨hs, hs'⟩ hn.2
    | locally p hop => exact absurd ⟨p, Or.inl ⟨_, hop⟩⟩ hn.1
    | slaveHeard p hh hp => exact absurd ⟨p, Or.inr (Or.inl ⟨hh, hp⟩)⟩ hn.1
    | masterHeard p hh hp => exact absurd ⟨p, Or.inr (Or.inl ⟨hh, hp⟩)⟩ hn.1
    | change q hf => exact absurd ⟨q, Or.inr (Or.inr hf)⟩ hn.1
    | repeats q _ _ _ _ _ _ hce => exact hce
  | broadcastEffect =>
    simp only [Touches, not_or] at hn
    cases in_step wf hst with
    | keep _ _ _ _ _ hbc => exact hbc
    | takeOver _ hs hs' => exact absurd ⟨hs, hs'⟩ hn.1
    | locally p hop _ _ _ _ hbc => exact hbc
    | slaveHeard p hh hp _ _ _ _ _ hbc => exact hbc
    | masterHeard p hh hp _ _ _ _ _ hbc => exact hbc
    | change q hf _ _ _ _ _ hbc => exact hbc
    | repeats q hf => exact absurd ⟨q, hf⟩ hn.2

/-- C36.  A timer that is due stays due — with the same deadline — through any steps that neither
serve nor re-arm it as listed in `Touches`, however long, as long as the clock does not go
back. -/
theorem due_timer_is_not_lost {plat t₀ h₀ s} (r : Run plat t₀ h₀ s) {h s'}
    (x : Exec plat s h s') {t : TimerType} (hn : ∀ e ∈ h, ¬ Touches plat t e) {now now' : U32}
    (hd : Due s t now) (hle : now ≤ now') :
    Due s' t now' ∧ s'.timers.get t = s.timers.get t := by
  have key : s'.timers.get t = s.timers.get t := by
    induction x with
    | nil => rfl
    | cons op hx hst ih =>
      rw [← ih fun e he => hn e (List.mem_cons_of_mem _ he)]
      exact timer_step (hx.wf r.wf) hst (hn _ List.mem_cons_self)
  refine ⟨⟨by rw [key]; exact hd.1, ?_⟩, key⟩
  rw [key, BitVec.lt_def]
  have h1 := BitVec.lt_def.1 hd.2
  have h2 := BitVec.le_def.1 hle
  omega

/-- C36.  And it is served: in a quiet radio tick the first timer that is due — in the order
heartbeat, rotation, repetition — is the one that is handled. -/
theorem due_timer_is_served {plat t₀ h s} (r : Run plat t₀ h s) {now rx s'}
    (hq : Quiet s rx) (ht : s.radioTick plat now rx = .ok s') :
    (Due s .heartbeat now → Touches plat .heartbeat ⟨s, .radioTick now rx, s'⟩) ∧
    (s.getCurrentState = .master → ¬ Due s .heartbeat now → Due s .changeEffect now →
      Touches plat .changeEffect ⟨s, .radioTick now rx, s'⟩) ∧
    (s.getCurrentState = .master → ¬ Due s .heartbeat now → ¬ Due s .changeEffect now →
      Due s .broadcastEffect now → Touches plat .broadcastEffect ⟨s, .radioTick now rx, s'⟩) := by
  have wf := r.wf
  have hd := hq.delivered wf
  have nd : ∀ {a : U32}, (a = 0 ∨ ¬ a < now) → ¬ (a ≠ 0 ∧ a < now) := by
    rintro a (h | h) ⟨h1, h2⟩
    · exact h1 h
    · exact h h2
  refine ⟨fun hdue => ?_, fun hs h1 h2 => ?_, fun hs h1 h2 h3 => ?_⟩
  · have hx : s.timerExpired now = .heartbeat := (Node.timerExpired_heartbeat wf).2 hdue
    cases hs : s.state with
    | slave =>
      refine Or.inr (Or.inl ⟨hs, ?_⟩)
      cases Node.radioTick_cases wf ht <;> simp_all [Node.getCurrentState]
    | master =>
      refine Or.inr (Or.inr ⟨⟨_, _, rfl⟩, by rw [heard_tick wf, hd], ?_⟩)
      cases Node.radioTick_cases wf ht <;>
        simp_all [Entry.transmitted, Packet.writeHeartbeat]
  · cases (silent_step wf hs hd ht).1 with
    | idle _ _ h => exact absurd h2 (nd h)
    | beat q _ _ _ _ _ h => exact absurd h h1
    | change q hf => exact Or.inl ⟨q, Or.inr (Or.inr hf)⟩
    | repeats q _ _ h => exact absurd h2 (nd h)
  · cases (silent_step wf hs hd ht).1 with
    | idle _ _ _ h => exact absurd h3 (nd h)
    | beat q _ _ _ _ _ h => exact absurd h h1
    | change q _ _ _ _ _ h => exact absurd h h2
    | repeats q hf => exact Or.inr ⟨q, hf⟩

/-- A due rotation timer that survives a heartbeat: at 60101 ms both are due, the heartbeat is
served first, the rotation stays due (and is served at 60102 ms, see `Demo.rotation_run`). -/
example : ∃ h s e s', Run .arduino 0 h s ∧ Exec .arduino s [e] s' ∧ Due s .changeEffect 60101 ∧
    Due s .heartbeat 60101 ∧ Due s' .changeEffect 60102 ∧ ¬ Due s' .heartbeat 60102 := by
  obtain ⟨h, s, r, hc⟩ := run_of_check (plat := .arduino) (t₀ := 0) (rand := fun _ => 7)
    (ops := [.radioTick 100 (some ⟨99, .setEffect, 3, (Vector.replicate 58 0).set 0 5 |>.set 2 2⟩),
      .radioTick 6000 none, .radioTick 60101 none])
    (fun h s => match h with
      | e :: _ => decide (e.pre.timers.changeEffect ≠ 0 ∧ e.pre.timers.changeEffect < (60101 : U32)) &&
          decide (e.pre.timers.heartbeat ≠ 0 ∧ e.pre.timers.heartbeat < (60101 : U32)) &&
          decide (s.timers.changeEffect ≠ 0 ∧ s.timers.changeEffect < (60102 : U32)) &&
          decide (¬ (s.timers.heartbeat ≠ 0 ∧ s.timers.heartbeat < (60102 : U32)))
      | [] => false) (by decide +kernel)
  split at hc
  · rename_i e l
    simp only [Bool.and_eq_true, decide_eq_true_eq] at hc
    obtain ⟨⟨⟨h1, h2⟩, h3⟩, h4⟩ := hc
    obtain ⟨r', hst, rfl⟩ := r.cons_inv
    exact ⟨l, e.pre, e, e.post, r', .cons e.op .nil hst, h1, h2, h3, h4⟩
  · cases hc

/-! ### C37 -/

/-- A device on which no timer is armed. -/
def NoTimers (s : Node) : Prop := ∀ t, s.timers.get t = 0

/-- When exactly a single armed timer is reported, at all clock values. -/
theorem timer_reported_iff {s : Node} (hn : NoTimers s) {t : TimerType} (ht : t ≠ .none)
    {d : U32} (hd : d ≠ 0) (now now' : U32) :
    (s.setTimer now t d).timerExpired now' = t ↔
      (now.toNat + d.toNat) % 2 ^ 32 ≠ 0 ∧ (now.toNat + d.toNat) % 2 ^ 32 < now'.toNat := by
  have h0 := hn .none
  have h1 := hn .heartbeat
  have h2 := hn .changeEffect
  have h3 := hn .broadcastEffect
  simp only [Timers.get] at h0 h1 h2 h3
  have e1 : (now + d ≠ 0 ∧ now + d < now') ↔ ((now.toNat + d.toNat) % 2 ^ 32 ≠ 0 ∧
      (now.toNat + d.toNat) % 2 ^ 32 < now'.toNat) := by
    rw [← BitVec.toNat_add, BitVec.lt_def]
    refine and_congr ⟨fun h h' => h (BitVec.eq_of_toNat_eq h'), fun h h' => h (by rw [h']; rfl)⟩
      Iff.rfl
  rw [← e1]
  cases t <;>
    simp [Node.timerExpired, Node.setTimer, Timers.set, h0, h1, h2, h3] at ht ⊢ <;> grind

/-- C37.  As long as the deadline does not reach 2^32, a timer armed at `now` with delay `d ≥ 1` is
reported exactly once more than `d` ms have passed. -/
theorem timer_exact {s : Node} (hn : NoTimers s) {t : TimerType} (ht : t ≠ .none)
    {d : U32} (hd : d ≠ 0) (now now' : U32) (hw : now.toNat + d.toNat < 2 ^ 32) :
    (s.setTimer now t d).timerExpired now' = t ↔ now.toNat + d.toNat < now'.toNat := by
  rw [timer_reported_iff hn ht hd, Nat.mod_eq_of_lt hw]
  have : d.toNat ≠ 0 := fun h => hd (BitVec.eq_of_toNat_eq h)
  omega

/-- C37 (refutation).  A timer whose deadline is exactly 2^32 is never reported; one whose
deadline lies beyond is reported at once. -/
theorem timer_at_wrap {s : Node} (hn : NoTimers s) {t : TimerType} (ht : t ≠ .none)
    {d : U32} (hd : d ≠ 0) (now : U32) :
    (now.toNat + d.toNat = 2 ^ 32 → ∀ now', (s.setTimer now t d).timerExpired now' ≠ t) ∧
    (2 ^ 32 < now.toNat + d.toNat → (s.setTimer now t d).timerExpired now = t) := by
  constructor
  · intro h now' he
    rw [timer_reported_iff hn ht hd, h] at he
    simp at he
  · intro h
    rw [timer_reported_iff hn ht hd]
    have := d.isLt
    omega

/-- A heartbeat timer armed 1000 ms before the wrap is lost; 999 ms before it fires at once. -/
example : ∃ s : Node, NoTimers s ∧
    (∀ now', (s.setTimer 4294966296 .heartbeat 1000).timerExpired now' ≠ .heartbeat) ∧
    (s.setTimer 4294966297 .heartbeat 1000).timerExpired 4294966297 = .heartbeat := by
  have hn : NoTimers { Demo.node with timers := ⟨0, 0, 0, 0⟩ } := by
    intro t; cases t <;> rfl
  exact ⟨_, hn, (timer_at_wrap hn (by decide) (by decide) _).1 (by decide),
    (timer_at_wrap hn (by decide) (by decide) _).2 (by decide)⟩

/-! ### C42 -/

/-- C42 (starvation).  As long as a master hears in every radio tick a new packet that is neither
heartbeat nor claim, it serves no timer: it only relays what it hears — no own heartbeat, no
change, no repetition — and stays master, however long that goes on. -/
theorem flood_starves_timers {plat t₀ h₀ s} (r : Run plat t₀ h₀ s)
    (hs : s.getCurrentState = .master) {h s'} (x : Exec plat s h s')
    (hf : ∀ e ∈ h, Entry.IsTick e ∧ ∃ p, Entry.heard e = some p ∧ p.type ≠ .heartbeat ∧
      p.type ≠ .claimMaster) :
    s'.getCurrentState = .master ∧
    ∀ e ∈ h, ¬ Entry.OwnHeartbeat e ∧ ∃ p, Entry.heard e = some p ∧ Entry.transmitted e = [p] := by
  induction x with
  | nil => exact ⟨hs, by simp⟩
  | @cons h s₁ op s₂ hx hst ih =>
    obtain ⟨i1, i2⟩ := ih fun e he => hf e (List.mem_cons_of_mem _ he)
    obtain ⟨⟨now, rx, hop⟩, p, hp, h1, h2⟩ := hf _ List.mem_cons_self
    simp only at hop
    subst hop
    have wf : s₁.WF := hx.wf r.wf
    have hd := hp
    rw [heard_tick wf] at hd
    have i1' : s₁.state = .master := i1
    have key : s₂.state = .master ∧
        Entry.transmitted ⟨s₁, .radioTick now rx, s₂⟩ = [p] := by
      cases Node.radioTick_cases wf hst <;>
        simp_all [Entry.transmitted, Node.setTimer, Node.afterAccept]
    refine ⟨key.1, fun e he => ?_⟩
    rcases List.mem_cons.1 he with rfl | he
    · refine ⟨?_, p, hp, key.2⟩
      rintro ⟨_, h, _⟩
      rw [hp] at h; cases h
    · exact i2 e he

theorem exists_fresh_id (l : List U16) (hl : l.length = 5) : ∃ id : U16, id ∉ l := by
  refine Classical.byContradiction fun hn => ?_
  have hall : ∀ id : U16, id ∈ l := fun id =>
    Classical.byContradiction fun h => hn ⟨id, h⟩
  have hnd : ([0, 1, 2, 3, 4, 5] : List U16).Nodup := by decide
  have := length_le_of_nodup_subset hnd (l' := l) fun a _ => hall a
  rw [hl] at this
  simp at this

/-- C42 (the starving flood exists).  Any master, in either build and at whatever times its radio
ticks come, can be starved like that for ever: for every list of times there is an execution
with radio ticks at these times hearing such packets. -/
theorem flood_can_starve {plat t₀ h₀ s} (r : Run plat t₀ h₀ s) (times : List U32) :
    ∃ h s', Exec plat s h s' ∧ h.map Entry.time = times ∧
      ∀ e ∈ h, Entry.IsTick e ∧ ∃ p, Entry.heard e = some p ∧ p.type ≠ .heartbeat ∧
        p.type ≠ .claimMaster := by
  induction times with
  | nil => exact ⟨[], s, .nil, rfl, by simp⟩
  | cons t ts ih =>
    obtain ⟨h, s₁, x, ht, hall⟩ := ih
    have r₁ : Run plat t₀ (h ++ h₀) s₁ := by
      obtain ⟨rand, j, j', y⟩ := r
      exact ⟨rand, j, j', exec_append y x⟩
    obtain ⟨id, hid⟩ := exists_fresh_id s₁.nm.cache.toList (by simp)
    let p : Packet := ⟨id, .other 4 (by decide), 0, Vector.replicate 58 0⟩
    have hd : s₁.delivered (some p) = some p := by
      simp only [Node.delivered]; rw [if_neg hid]
    have hh : Hears s₁ (some p) p := hears_of_delivered r₁.wf hd
    obtain ⟨m, _, hst⟩ := unknown_type_is_inert r₁ hh (n := 4) (hn := by decide) rfl t
    refine ⟨_, _, .cons (.radioTick t (some p)) x hst, ?_, ?_⟩
    · simp [ht, Entry.time, Op.time]
    · intro e he
      rcases List.mem_cons.1 he with rfl | he
      · refine ⟨⟨_, _, rfl⟩, p, ?_, by simp [p], by simp [p]⟩
        rw [heard_tick r₁.wf, hd]
      · exact hall e he

open Demo in
/-- Any master, e.g. `boot 0`, ticking every 500 ms for an hour. -/
example : ∃ h s', Exec .arduino (boot 0).2 h s' ∧ h.length = 7200 ∧
    s'.getCurrentState = .master ∧ ∀ e ∈ h, ¬ Entry.OwnHeartbeat e := by
  obtain ⟨h, s', x, ht, hall⟩ := flood_can_starve (boot_run 0)
    ((List.range 7200).map fun i => BitVec.ofNat 32 (6000 + 500 * (7200 - i)))
  obtain ⟨h1, h2⟩ := flood_starves_timers (boot_run 0) (boot_master 0) x hall
  exact ⟨h, s', x, by simpa using congrArg List.length ht, h1, fun e he => (h2 e he).1⟩

end Firefly.Props
