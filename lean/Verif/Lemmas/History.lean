import Verif.Lemmas.StateMachine
import Verif.Spec.History

/-! # Helper lemmas about histories -/

set_option linter.unusedSimpArgs false

namespace Firefly
open Spec

namespace Node

/-- The node after `SetEffect`. -/
def afterSetEffect (plat : Platform) (now : U32) (p : Packet) (s : Node) : Node :=
  { afterSend plat p s with
    setEffectPacket := stamped plat p s
    effectIndex := p.data[0]
    timers := { s.timers with changeEffect :=
      now + (if p.data[1] = 0 then kChangeEffectInterval else p.data[1].setWidth 32 * 1000) } }

theorem delay_toNat (d : U8) : (d.setWidth 32 * (1000 : U32)).toNat = d.toNat * 1000 := by
  have := d.isLt
  rw [BitVec.toNat_mul, BitVec.toNat_setWidth]
  show (d.toNat % 2 ^ 32 * 1000) % 2 ^ 32 = _
  omega

theorem delay_ne_zero {d : U8} (h : d ≠ 0) : d.setWidth 32 * 1000 ≠ (0 : U32) := by
  intro h'
  have h1 := delay_toNat d
  rw [h'] at h1
  have h2 : d.toNat = 0 := by
    have : (0 : U32).toNat = 0 := rfl
    omega
  exact h (BitVec.eq_of_toNat_eq h2)

theorem setEffect_eq {plat now p} {s : Node} (hi : s.nm.idx.toNat < 5) :
    s.setEffect plat now p =
      if plat = .host ∧ ¬ (p.type = .setEffect ∧ p.len = 3) then .error .assertFail
      else .ok (afterSetEffect plat now p s) := by
  have e1 : ∀ x : Packet, (stamped plat x s).type = x.type := fun _ => rfl
  have e2 : ∀ x : Packet, (stamped plat x s).len = x.len := fun _ => rfl
  have e3 : ∀ x : Packet, (stamped plat x s).data = x.data := fun _ => rfl
  by_cases h : plat = .host ∧ ¬ (p.type = .setEffect ∧ p.len = 3)
  · simp only [setEffect, bind, Except.bind]
    rw [nmSend_eq (by exact hi)]
    dsimp only
    rw [readEffect_eq, if_pos h, if_pos h]
  · simp only [setEffect, bind, Except.bind]
    rw [nmSend_eq (by exact hi)]
    dsimp only
    rw [readEffect_eq, if_neg h, if_neg h]
    dsimp only
    rw [readDelay_eq]
    have h' : ¬ (plat = .host ∧ ¬ ((stamped plat p { s with setEffectPacket := p }).type = .setEffect ∧
      (stamped plat p { s with setEffectPacket := p }).len = 3)) := h
    rw [if_neg h']
    dsimp only
    by_cases hd : p.data[1] = 0
    · have hd' : ¬ (stamped plat p { s with setEffectPacket := p }).data[1] ≠ 0 := not_not_intro hd
      rw [if_neg hd']
      simp only [afterSetEffect, if_pos hd]
      rfl
    · have hd' : (stamped plat p { s with setEffectPacket := p }).data[1] ≠ 0 := hd
      rw [if_pos hd']
      simp only [afterSetEffect, if_neg hd, setTimer]
      have : (stamped plat p { s with setEffectPacket := p }).data[1] = p.data[1] := rfl
      rw [this, if_neg (delay_ne_zero hd)]
      rfl

theorem WF.init {now rand junk junk'} : (Node.init now rand junk junk').WF :=
  ⟨show (0 : U8).toNat < 5 by decide, rfl, rfl⟩

theorem TickCase.wf {plat now rx} {s s' : Node} (wf : s.WF) (h : TickCase plat now rx s s') :
    s'.WF := by
  have hi := wf.idx
  have hi' := fun id => NM.push_idx hi id
  have hi'' := fun id id' => NM.push_idx (hi' id) id'
  have hn := wf.next
  have ht := wf.timerNone
  refine ⟨?_, ?_, ?_⟩
  · cases h <;> first | with_reducible exact hi | exact hi' _ | exact hi'' _ _
  · cases h <;> first | exact hn | rfl
  · cases h <;> simp [ht, Timers.set]

theorem step_wf {plat op} {s s' : Node} (wf : s.WF) (h : Op.step plat op s = .ok s') : s'.WF := by
  cases op with
  | radioTick now rx => exact (radioTick_cases wf h).wf wf
  | setEffect now p =>
    simp only [Op.step] at h
    rw [setEffect_eq wf.idx] at h
    split at h
    · cases h
    · cases h
      exact ⟨NM.push_idx wf.idx _, wf.next, wf.timerNone⟩
  | setNumPalettes now n => cases h; exact ⟨wf.idx, wf.next, wf.timerNone⟩
  | setNumEffects now n => cases h; exact ⟨wf.idx, wf.next, wf.timerNone⟩
  | endTick now => cases h; exact ⟨wf.idx, wf.next, wf.timerNone⟩

end Node

theorem Exec.wf {plat s₀ h s} (wf : s₀.WF) (x : Exec plat s₀ h s) : s.WF := by
  induction x with
  | nil => exact wf
  | cons op _ hst ih => exact Node.step_wf ih hst

theorem Run.wf {plat t₀ h s} : Run plat t₀ h s → s.WF := by
  rintro ⟨r, j, j', x⟩; exact x.wf .init

/-! ### Linking the specification vocabulary to the case analysis -/

theorem heard_tick {s s' : Node} {now rx} (wf : s.WF) :
    Entry.heard ⟨s, .radioTick now rx, s'⟩ = s.delivered rx := by
  cases hd : s.delivered rx with
  | none => simp [Entry.heard, Node.receive_none hd]
  | some p => simp [Entry.heard, Node.receive_some wf.idx hd]

theorem Spec.Quiet.delivered {s : Node} {rx} (wf : s.WF) (q : Quiet s rx) :
    s.delivered rx = none := by
  obtain ⟨out, m, h⟩ := q
  cases hd : s.delivered rx with
  | none => rfl
  | some p => rw [Node.receive_some wf.idx hd] at h; cases h

theorem Spec.Hears.delivered {s : Node} {rx p} (wf : s.WF) (q : Hears s rx p) :
    s.delivered rx = some p := (Node.receive_iff wf.idx).1 q

theorem quiet_of_delivered {s : Node} {rx} (h : s.delivered rx = none) : Quiet s rx :=
  ⟨_, _, Node.receive_none h⟩

theorem hears_of_delivered {s : Node} {rx p} (wf : s.WF) (h : s.delivered rx = some p) :
    Hears s rx p := (Node.receive_iff wf.idx).2 h

/-- Execute a list of operations. -/
def runOps (plat : Platform) : List Op → List Entry → Node → Option (List Entry × Node)
  | [], h, s => some (h, s)
  | op :: ops, h, s =>
    match op.step plat s with
    | .ok s' => runOps plat ops (⟨s, op, s'⟩ :: h) s'
    | .error _ => none

theorem runOps_exec {plat s₀} : ∀ {ops h s h' s'}, Exec plat s₀ h s →
    runOps plat ops h s = some (h', s') → Exec plat s₀ h' s'
  | [], _, _, _, _, x, e => by cases e; exact x
  | op :: ops, h, s, h', s', x, e => by
    simp only [runOps] at e
    split at e
    · rename_i s1 h1
      exact runOps_exec (.cons op x h1) e
    · cases e

/-- The result of a list of operations from power-on, for examples. -/
def bootRun (plat : Platform) (t₀ : U32) (rand : Rand) (ops : List Op) : Option (List Entry × Node) :=
  runOps plat ops [] (Node.init t₀ rand (.heartbeat, Vector.replicate 58 0)
    (.heartbeat, Vector.replicate 58 0))

theorem bootRun_run {plat t₀ rand ops h s} (e : bootRun plat t₀ rand ops = some (h, s)) :
    Run plat t₀ h s := ⟨_, _, _, runOps_exec .nil e⟩

/-- A decidable summary of a step, for examples. -/
structure Summary where
  time : U32
  tick : Bool
  pre : RadioState
  post : RadioState
  heard : Option PType
  sent : List PType
  proper : Bool
  deriving DecidableEq

/-- The summary of a step. -/
def summary (e : Entry) : Summary where
  time := Entry.time e
  tick := match e.op with | .radioTick _ _ => true | _ => false
  pre := e.pre.state
  post := e.post.state
  heard := (Entry.heard e).map (·.type)
  sent := (Entry.transmitted e).map (·.type)
  proper := match e.op with | .setEffect _ p => decide (IsInstruction p) | _ => true

/-- An execution from power-on with the given summaries exists. -/
theorem run_of_summaries {plat t₀ rand ops l}
    (e : (bootRun plat t₀ rand ops).map (fun x => x.1.map summary) = some l) :
    ∃ h s, Run plat t₀ h s ∧ h.map summary = l := by
  cases hb : bootRun plat t₀ rand ops with
  | none => rw [hb] at e; cases e
  | some x =>
    rw [hb] at e
    obtain ⟨h, s⟩ := x
    exact ⟨h, s, bootRun_run hb, by simpa using e⟩

/-- Executable check of the clock conditions. -/
def clockOk : List U32 → Bool
  | [] => true
  | t :: l => decide (t ≤ 4294712295#32) && l.all (fun u => decide (u ≤ t)) && clockOk l

theorem clockOk_sound {l : List U32} : clockOk l = true →
    l.Pairwise (· ≥ ·) ∧ ∀ t ∈ l, t.toNat + 255000 < 2 ^ 32 := by
  induction l with
  | nil => simp
  | cons t l ih =>
    intro h
    simp only [clockOk, Bool.and_eq_true, List.all_eq_true, decide_eq_true_eq] at h
    obtain ⟨⟨h1, h2⟩, h3⟩ := h
    obtain ⟨h4, h5⟩ := ih h3
    refine ⟨List.pairwise_cons.2 ⟨fun v hv => h2 v hv, h4⟩, fun v hv => ?_⟩
    rcases List.mem_cons.1 hv with rfl | hv
    · have : v.toNat ≤ 4294712295 := BitVec.le_def.1 h1
      omega
    · exact h5 v hv

theorem clock_of_summaries {t₀ h l} (e : h.map summary = l)
    (d : clockOk (l.map (·.time) ++ [t₀]) = true) : Clock t₀ h := by
  subst e
  have := clockOk_sound d
  simpa [Clock, List.map_map, Function.comp_def, summary] using this

theorem proper_of_summaries {h l} (e : h.map summary = l) (d : ∀ x ∈ l, x.proper = true) :
    ProperUse h := by
  subst e
  intro e he now p hop
  have := d _ (List.mem_map_of_mem he)
  simpa [summary, hop] using this

theorem ownHeartbeat_of_summary {e : Entry} (h : (summary e).tick = true)
    (h' : (summary e).heard = none) (h'' : PType.heartbeat ∈ (summary e).sent) :
    Entry.OwnHeartbeat e := by
  obtain ⟨pre, op, post⟩ := e
  refine ⟨?_, by simpa [summary] using h', by simpa [summary] using h''⟩
  cases op with
  | radioTick now rx => exact ⟨now, rx, rfl⟩
  | _ => cases h

theorem heardMaster_of_summary {e : Entry} (h : (summary e).heard = some .heartbeat) :
    Entry.HeardMaster e := by
  simp only [summary, Option.map_eq_some_iff] at h
  obtain ⟨p, h1, h2⟩ := h
  exact ⟨p, h1, Or.inl h2⟩

theorem Spec.Clock.cons {t₀ e h} (c : Clock t₀ (e :: h)) :
    Clock t₀ h ∧ (Entry.time e).toNat + 255000 < 2 ^ 32 ∧
      t₀.toNat ≤ (Entry.time e).toNat ∧ ∀ e' ∈ h, (Entry.time e').toNat ≤ (Entry.time e).toNat := by
  obtain ⟨c1, c2⟩ := c
  simp only [List.map_cons, List.cons_append, List.pairwise_cons] at c1
  refine ⟨⟨c1.2, fun t ht => c2 t (by simp at ht ⊢; exact Or.inr ht)⟩, c2 _ (by simp), ?_, ?_⟩
  · exact BitVec.le_def.mp (c1.1 t₀ (by simp))
  · intro e' he'
    exact BitVec.le_def.mp (c1.1 _ (by simp; exact Or.inl ⟨e', he', rfl⟩))

theorem Spec.Clock.bound {t₀ h} (c : Clock t₀ h) :
    t₀.toNat + 255000 < 2 ^ 32 ∧ ∀ e ∈ h, (Entry.time e).toNat + 255000 < 2 ^ 32 :=
  ⟨c.2 t₀ (by simp), fun e he => c.2 _ (by simp; exact Or.inl ⟨e, he, rfl⟩)⟩

theorem Spec.ProperUse.cons {e h} (p : ProperUse (e :: h)) :
    ProperUse h ∧ ∀ now q, e.op = .setEffect now q → IsInstruction q :=
  ⟨fun e' he' => p e' (List.mem_cons_of_mem _ he'), p e List.mem_cons_self⟩

namespace Node

theorem step_instruction {plat op} {s s' : Node} (wf : s.WF) (hs : IsInstruction s.setEffectPacket)
    (hp : ∀ now p, op = .setEffect now p → IsInstruction p)
    (h : Op.step plat op s = .ok s') : IsInstruction s'.setEffectPacket := by
  cases op with
  | radioTick now rx =>
    cases radioTick_cases wf h <;> simp_all [IsInstruction, Packet.writeSetEffect]
  | setEffect now p =>
    simp only [Op.step] at h
    rw [setEffect_eq wf.idx] at h
    split at h
    · cases h
    · cases h
      exact hp now p rfl
  | setNumPalettes now n => cases h; exact hs
  | setNumEffects now n => cases h; exact hs
  | endTick now => cases h; exact hs

end Node

theorem Run.instruction {plat t₀ h s} (r : Run plat t₀ h s) (p : ProperUse h) :
    IsInstruction s.setEffectPacket := by
  obtain ⟨rand, j, j', x⟩ := r
  induction x with
  | nil => exact Or.inl rfl
  | cons op hx hst ih =>
    have p' := ProperUse.cons p
    exact Node.step_instruction (hx.wf .init) (ih p'.1) (fun now q => p'.2 now q) hst

theorem Run.nil_inv {plat t₀ s} (r : Run plat t₀ [] s) :
    ∃ rand junk junk', s = Node.init t₀ rand junk junk' := by
  obtain ⟨rand, j, j', x⟩ := r
  cases x
  exact ⟨_, _, _, rfl⟩

theorem Run.cons_inv {plat t₀ e h s} (r : Run plat t₀ (e :: h) s) :
    Run plat t₀ h e.pre ∧ e.op.step plat e.pre = .ok e.post ∧ e.post = s := by
  obtain ⟨rand, j, j', x⟩ := r
  cases x with
  | cons op hx hst => exact ⟨⟨_, _, _, hx⟩, hst, rfl⟩

/-! ### The heartbeat timer -/

namespace Node

theorem timerExpired_heartbeat {now} {s : Node} (wf : s.WF) :
    s.timerExpired now = .heartbeat ↔ s.timers.heartbeat ≠ 0 ∧ s.timers.heartbeat < now := by
  simp only [timerExpired, wf.timerNone]
  simp
  grind

theorem timeout_toNat {now : U32} (h : now.toNat + 255000 < 2 ^ 32) (n : Nat) :
    (now + BitVec.ofNat 32 (5000 + n % 2000)).toNat = now.toNat + 5000 + n % 2000 := by
  rw [BitVec.toNat_add, BitVec.toNat_ofNat]
  omega

theorem add_toNat {now d : U32} (h : now.toNat + 255000 < 2 ^ 32) (hd : d.toNat ≤ 255000) :
    (now + d).toNat = now.toNat + d.toNat := by
  rw [BitVec.toNat_add]
  omega

/-- A tick of a slave that hears nothing while its timeout is due. -/
theorem radioTick_takeOver {plat now rx} {s : Node} (wf : s.WF) (hd : s.delivered rx = none)
    (hs : s.state = .slave) (ht : s.timerExpired now = .heartbeat) :
    s.radioTick plat now rx = .ok
      (afterBeginMaster plat now { s with timers := { s.timers with heartbeat := 0 } }) := by
  rcases radioTick_result (plat := plat) (now := now) (rx := rx) wf with
    ⟨s', h1, h2⟩ | ⟨_, _, q, h2, _⟩ | ⟨_, _, _, h2, _⟩
  · rw [h1]; cases h2 <;> simp_all
  · simp_all
  · simp_all

/-- A tick of a master that hears nothing while its heartbeat is due. -/
theorem radioTick_beat {plat now rx} {s : Node} (wf : s.WF) (hd : s.delivered rx = none)
    (hs : s.state = .master) (ht : s.timerExpired now = .heartbeat) :
    s.radioTick plat now rx = .ok { afterHeartbeat plat now s with
        timers := { s.timers with heartbeat := now + kMasterHeartbeatInterval } } := by
  rcases radioTick_result (plat := plat) (now := now) (rx := rx) wf with
    ⟨s', h1, h2⟩ | ⟨_, _, q, h2, _⟩ | ⟨_, _, _, _, h2, _⟩
  · rw [h1]; cases h2 <;> simp_all
  · simp_all
  · simp_all

/-- What a step can do to the heartbeat timer. -/
inductive HbStep (e : Entry) : Prop
  | keep (hs : e.post.state = e.pre.state) (ht : e.post.timers.heartbeat = e.pre.timers.heartbeat)
      (ho : ¬ Entry.OwnHeartbeat e) (hm : e.pre.state = .slave → ¬ Entry.HeardMaster e)
  | rearm (hs : e.post.state = .slave)
      (ht : (Entry.time e).toNat + 5000 ≤ e.post.timers.heartbeat.toNat)
      (ht' : e.post.timers.heartbeat.toNat < (Entry.time e).toNat + 7000)
      (ho : ¬ Entry.OwnHeartbeat e) (hm : Entry.HeardMaster e)
  | takeOver (hs : e.pre.state = .slave) (hs' : e.post.state = .master)
      (h0 : e.pre.timers.heartbeat ≠ 0) (h1 : e.pre.timers.heartbeat < Entry.time e)
      (ht : e.post.timers.heartbeat = Entry.time e + 1000)
      (ho : Entry.OwnHeartbeat e) (hm : ¬ Entry.HeardMaster e)
  | beat (hs : e.pre.state = .master) (hs' : e.post.state = .master)
      (h0 : e.pre.timers.heartbeat ≠ 0) (h1 : e.pre.timers.heartbeat < Entry.time e)
      (ht : e.post.timers.heartbeat = Entry.time e + 1000)
      (ho : Entry.OwnHeartbeat e) (hm : ¬ Entry.HeardMaster e)

theorem hb_step {plat op} {s s' : Node} (wf : s.WF) (hi : IsInstruction s.setEffectPacket)
    (h : Op.step plat op s = .ok s') (hc : op.time.toNat + 255000 < 2 ^ 32) :
    HbStep ⟨s, op, s'⟩ := by
  cases op with
  | radioTick now rx =>
    have hh := fun x => heard_tick (s' := x) (now := now) (rx := rx) wf
    have hc' : now.toNat + 255000 < 2 ^ 32 := hc
    have hto := timeout_toNat hc'
    have hx := timerExpired_heartbeat (now := now) wf
    cases radioTick_cases wf h
    case slaveQuiet hd hs ht =>
      refine .keep (by simp) (by simp [Timers.set]) ?_ ?_
      · simp [Entry.OwnHeartbeat, Entry.transmitted]
      · simp [Entry.HeardMaster, hh, hd]
    case masterQuiet hd hs ht =>
      refine .keep (by simp) (by simp [Timers.set]) ?_ ?_
      · simp [Entry.OwnHeartbeat, Entry.transmitted]
      · simp [Entry.HeardMaster, hh, hd]
    case takeOver hd hs ht =>
      refine .takeOver hs rfl (hx.1 ht).1 (hx.1 ht).2 rfl ?_ ?_
      · simp [Entry.OwnHeartbeat, Entry.IsTick, Entry.transmitted, hh, hd, Packet.writeHeartbeat]
      · simp [Entry.HeardMaster, hh, hd]
    case beat hd hs ht =>
      refine .beat hs hs (hx.1 ht).1 (hx.1 ht).2 rfl ?_ ?_
      · simp [Entry.OwnHeartbeat, Entry.IsTick, Entry.transmitted, hh, hd, Packet.writeHeartbeat]
      · simp [Entry.HeardMaster, hh, hd]
    case change hd hs ht _ _ _ _ _ _ =>
      refine .keep (by simp) (by simp [Timers.set]) ?_ ?_
      · simp [Entry.OwnHeartbeat, Entry.transmitted, Packet.writeSetEffect]
      · simp [Entry.HeardMaster, hh, hd]
    case «repeat» hd hs ht =>
      refine .keep (by simp) (by simp [Timers.set]) ?_ ?_
      · simp only [Entry.OwnHeartbeat, Entry.transmitted, IsInstruction] at hi ⊢
        simp
        intro _ _ h
        simp [h] at hi
      · simp [Entry.HeardMaster, hh, hd]
    case slaveHeartbeat p hd hs hp hl =>
      refine .rearm hs ?_ ?_ ?_ ?_
      · simp only [Entry.time, Op.time, armSlaveTimeout_timers, hto]; omega
      · simp only [Entry.time, Op.time, armSlaveTimeout_timers, hto]; omega
      · simp [Entry.OwnHeartbeat, hh, hd]
      · simp [Entry.HeardMaster, hh, hd, hp]
    case slaveClaim p hd hs hp =>
      refine .rearm hs ?_ ?_ ?_ ?_
      · simp only [Entry.time, Op.time, armSlaveTimeout_timers, hto]; omega
      · simp only [Entry.time, Op.time, armSlaveTimeout_timers, hto]; omega
      · simp [Entry.OwnHeartbeat, hh, hd]
      · simp [Entry.HeardMaster, hh, hd, hp]
    case electionLost p hd hs hp he =>
      refine .rearm rfl ?_ ?_ ?_ ?_
      · simp only [Entry.time, Op.time, afterBeginSlave_timers, hto]; omega
      · simp only [Entry.time, Op.time, afterBeginSlave_timers, hto]; omega
      · simp [Entry.OwnHeartbeat, hh, hd]
      · simp [Entry.HeardMaster, hh, hd, hp]
    case masterClaim p hd hs hp =>
      refine .rearm rfl ?_ ?_ ?_ ?_
      · simp only [Entry.time, Op.time, afterBeginSlave_timers, hto]; omega
      · simp only [Entry.time, Op.time, afterBeginSlave_timers, hto]; omega
      · simp [Entry.OwnHeartbeat, hh, hd]
      · simp [Entry.HeardMaster, hh, hd, hp]
    case electionWon p hd hs hp he =>
      refine .keep (by simp) (by simp [Timers.set]) ?_ ?_
      · simp [Entry.OwnHeartbeat, hh, hd]
      · simp [hs]
    case slaveEffect p hd hs hp hl =>
      refine .keep (by simp) (by simp [Timers.set]) ?_ ?_
      · simp [Entry.OwnHeartbeat, hh, hd]
      · simp [Entry.HeardMaster, hh, hd, hp]
    case slaveControl p hd hs hp =>
      refine .keep (by simp) (by simp [Timers.set]) ?_ ?_
      · simp [Entry.OwnHeartbeat, hh, hd]
      · simp [Entry.HeardMaster, hh, hd, hp]
    case other p n hn hd hp =>
      refine .keep (by simp) (by simp [Timers.set]) ?_ ?_
      · simp [Entry.OwnHeartbeat, hh, hd]
      · simp [Entry.HeardMaster, hh, hd, hp]
    case masterEffect p hd hs hp hl =>
      refine .keep (by simp) (by simp [Timers.set]) ?_ ?_
      · simp [Entry.OwnHeartbeat, hh, hd]
      · simp [Entry.HeardMaster, hh, hd, hp]
    case masterControl p hd hs hp hl =>
      refine .keep (by simp) (by simp [Timers.set]) ?_ ?_
      · simp [Entry.OwnHeartbeat, hh, hd]
      · simp [Entry.HeardMaster, hh, hd, hp]
  | setEffect now p =>
    simp only [Op.step] at h
    rw [setEffect_eq wf.idx] at h
    split at h
    · cases h
    · cases h
      refine .keep rfl rfl ?_ ?_
      · simp [Entry.OwnHeartbeat, Entry.IsTick]
      · simp [Entry.HeardMaster, Entry.heard]
  | setNumPalettes now n =>
    cases h
    refine .keep rfl rfl ?_ ?_
    · simp [Entry.OwnHeartbeat, Entry.IsTick]
    · simp [Entry.HeardMaster, Entry.heard]
  | setNumEffects now n =>
    cases h
    refine .keep rfl rfl ?_ ?_
    · simp [Entry.OwnHeartbeat, Entry.IsTick]
    · simp [Entry.HeardMaster, Entry.heard]
  | endTick now =>
    cases h
    refine .keep rfl rfl ?_ ?_
    · simp [Entry.OwnHeartbeat, Entry.IsTick]
    · simp [Entry.HeardMaster, Entry.heard]

end Node

/-- `Tick` is one radio tick (first call) or two radio ticks, followed by setting `tick_run_`. -/
theorem Node.tick_eq_ops {plat now₁ rx₁ now₂ rx₂} {s s' : Node} :
    s.tick plat now₁ rx₁ now₂ rx₂ = .ok s' ↔
      ∃ s₁, Op.step plat (.radioTick now₁ rx₁) s = .ok s₁ ∧
        ((s₁.tickRun = false ∧ Op.step plat (.endTick now₁) s₁ = .ok s') ∨
         (s₁.tickRun = true ∧ ∃ s₂, Op.step plat (.radioTick now₂ rx₂) s₁ = .ok s₂ ∧
            Op.step plat (.endTick now₂) s₂ = .ok s')) := by
  simp only [Node.tick, Op.step, bind, Except.bind, pure, Except.pure]
  cases h1 : s.radioTick plat now₁ rx₁ with
  | error f => simp
  | ok s₁ =>
    cases h2 : s₁.tickRun with
    | false => simp [h2]
    | true =>
      cases h3 : s₁.radioTick plat now₂ rx₂ with
      | error f => simp [h2, h3]
      | ok s₂ => simp [h2, h3]

/-- A call of `Tick` as a step sequence of an execution. -/
theorem Exec.tick {plat s₀ h s now₁ rx₁ now₂ rx₂} {s' : Node} (x : Exec plat s₀ h s)
    (ht : s.tick plat now₁ rx₁ now₂ rx₂ = .ok s') :
    ∃ h', Exec plat s₀ (h' ++ h) s' ∧ (h'.length = 2 ∨ h'.length = 3) := by
  obtain ⟨s₁, h1, ⟨_, h2⟩ | ⟨_, s₂, h2, h3⟩⟩ := Node.tick_eq_ops.1 ht
  · exact ⟨[_, _], .cons _ (.cons _ x h1) h2, Or.inl rfl⟩
  · exact ⟨[_, _, _], .cons _ (.cons _ (.cons _ x h1) h2) h3, Or.inr rfl⟩

end Firefly
