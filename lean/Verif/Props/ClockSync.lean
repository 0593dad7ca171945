import Verif.Lemmas.History
import Verif.Props.Packet
import Verif.Props.Election

/-! # Clock synchronisation (C24–C26) -/

set_option linter.unusedSimpArgs false

namespace Firefly.Props
open Spec

/-- The step is the handling of a heartbeat by a slave. -/
def SyncStep (e : Entry) : Prop :=
  e.pre.getCurrentState = .slave ∧ ∃ p, Entry.heard e = some p ∧ p.type = .heartbeat

/-- C25, for one step of a well-formed device. -/
theorem offset_step {plat} {op : Op} {s s' : Node} (wf : s.WF) (ht : op.step plat s = .ok s')
    (hn : ¬ SyncStep ⟨s, op, s'⟩) : s'.millisOffset = s.millisOffset := by
  cases op with
  | radioTick now rx =>
    have hh := heard_tick (s' := s') (now := now) (rx := rx) wf
    simp only [SyncStep, Node.getCurrentState, hh] at hn
    cases Node.radioTick_cases wf ht
    case slaveHeartbeat p hd hs hp _ => exact absurd ⟨hs, p, hd, hp⟩ hn
    all_goals simp
  | setEffect now p =>
    simp only [Op.step] at ht
    rw [Node.setEffect_eq wf.idx] at ht
    split at ht <;> cases ht
    rfl
  | setNumPalettes now n => cases ht; rfl
  | setNumEffects now n => cases ht; rfl
  | endTick now => cases ht; rfl

/-- C25.  If a step changes the network time shown at any local time, it is the handling of a
heartbeat by a slave. -/
theorem network_time_only_jumps_on_heartbeat {plat t₀ e h s} (r : Run plat t₀ (e :: h) s)
    (m : U32) (hne : e.post.getNetworkMillis m ≠ e.pre.getNetworkMillis m) : SyncStep e := by
  obtain ⟨r', hst, _⟩ := r.cons_inv
  by_cases hn : SyncStep e
  · exact hn
  · exact absurd (by simp only [Node.getNetworkMillis, offset_step r'.wf hst hn]) hne

theorem offset_exec {plat s h s'} (wf : s.WF) (x : Exec plat s h s')
    (hn : ∀ e ∈ h, ¬ SyncStep e) : s'.millisOffset = s.millisOffset := by
  induction x with
  | nil => rfl
  | cons op hx hst ih =>
    rw [offset_step (hx.wf wf) hst (hn _ List.mem_cons_self),
      ih (fun e he => hn e (List.mem_cons_of_mem _ he))]

theorem timeField_bigEndian (p : Packet) :
    p.timeField.toNat = bigEndian p.data[0] p.data[1] p.data[2] p.data[3] := by
  have key : ∀ a b c d : U8, ((d.setWidth 32) ||| (c.setWidth 32 <<< 8) |||
      (b.setWidth 32 <<< 16) ||| (a.setWidth 32 <<< 24) : U32) =
      ((a ++ b ++ c ++ d : BitVec 32)) := by
    intro a b c d
    ext i hi
    simp [BitVec.getElem_append]
    grind
  have := key p.data[0] p.data[1] p.data[2] p.data[3]
  unfold Packet.timeField bigEndian
  rw [this]
  have h0 := p.data[0].isLt
  have h1 := p.data[1].isLt
  have h2 := p.data[2].isLt
  have h3 := p.data[3].isLt
  simp only [BitVec.toNat_append]
  rw [← Nat.shiftLeft_add_eq_or_of_lt h1, ← Nat.shiftLeft_add_eq_or_of_lt h2,
    ← Nat.shiftLeft_add_eq_or_of_lt h3]
  simp only [Nat.shiftLeft_eq]
  omega

/-- C24.  A slave handles a heartbeat carrying the time `T` (big-endian in its first four
bytes) at local time `m`.  Through any further execution in which it handles no other
heartbeat as slave, its network time at every local time `m'` is `T + (m' - m)` modulo 2^32. -/
theorem sync_exact {plat t₀ h s} (r : Run plat t₀ h s) (hs : s.getCurrentState = .slave)
    {m rx p s'} (hp : Hears s rx p) (hpt : p.type = .heartbeat)
    (ht : s.radioTick plat m rx = .ok s') (T : U32)
    (hT : T.toNat = bigEndian p.data[0] p.data[1] p.data[2] p.data[3])
    {h' s''} (x : Exec plat s' h' s'') (hn : ∀ e ∈ h', ¬ SyncStep e) (m' : U32) :
    s''.getNetworkMillis m' = T + (m' - m) := by
  have hT' : T = p.timeField := BitVec.eq_of_toNat_eq (by rw [hT, timeField_bigEndian])
  have wf' : s'.WF := Node.step_wf (op := .radioTick m rx) r.wf ht
  have hd := hp.delivered r.wf
  have hoff : s'.millisOffset = p.timeField - m := by
    simp only [Node.getCurrentState] at hs
    cases Node.radioTick_cases r.wf ht <;> simp_all
  rw [Node.getNetworkMillis, offset_exec wf' x hn, hoff, hT']
  bv_omega

/-- The heartbeats a device originates carry its network time. -/
theorem own_heartbeat_time {plat t₀ e h s} (r : Run plat t₀ (e :: h) s) (p : ProperUse h)
    (ht : Entry.IsTick e) (hq : Entry.heard e = none) {q : Packet}
    (hmem : q ∈ Entry.transmitted e) (hqt : q.type = .heartbeat) :
    q.timeField = e.pre.getNetworkMillis (Entry.time e) := by
  obtain ⟨r', hst, _⟩ := r.cons_inv
  have hi := r'.instruction p
  obtain ⟨pre, op, post⟩ := e
  obtain ⟨now, rx, hop⟩ := ht
  simp only at hop
  subst hop
  have key : ∀ (x : Packet) (t : U32), (x.writeHeartbeat t).timeField = t := by
    intro x t
    have := (heartbeat_roundtrip .arduino x t).1
    rw [readTime_arduino] at this
    exact Except.ok.inj this
  have wf : pre.WF := r'.wf
  change Node.radioTick plat now rx pre = .ok post at hst
  rw [heard_tick wf] at hq
  cases Node.radioTick_cases wf hst <;>
    simp_all [Entry.transmitted, IsInstruction, Packet.writeSetEffect]
  · exact key _ _
  · exact key _ _
where
  readTime_arduino {x : Packet} : x.readTimeFromHeartbeat .arduino = .ok x.timeField := by
    simp [Packet.readTimeFromHeartbeat, hostAssert, bind, Except.bind, pure, Except.pure,
      Packet.timeField]

/-- C26.  Device `a` originates the heartbeat `q` in step `e` at its local time `ma`; device
`b`, a slave, handles it at its local time `mb`, when the local clock of `a` shows `ma + lag`.
Then `δ` ms later, whatever either of them did in between short of handling another heartbeat
as slave, the network clock of `b` is exactly `lag` behind that of `a`; with `lag = 0` they
agree. -/
theorem slaves_agree_with_sender {plat plat' ta e ha a tb hb b}
    (ra : Run plat ta (e :: ha) a) (pa : ProperUse ha) (ht : Entry.IsTick e)
    (hq : Entry.heard e = none) {q : Packet} (hmem : q ∈ Entry.transmitted e)
    (hqt : q.type = .heartbeat)
    (rb : Run plat' tb hb b) (hsb : b.getCurrentState = .slave) {mb rx b'}
    (hears : Hears b rx q) (htb : b.radioTick plat' mb rx = .ok b')
    {ha' a' hb' b''} (xa : Exec plat a ha' a') (xb : Exec plat' b' hb' b'')
    (hna : ∀ e ∈ ha', ¬ SyncStep e) (hnb : ∀ e ∈ hb', ¬ SyncStep e) (lag δ : U32) :
    a'.getNetworkMillis (Entry.time e + lag + δ) = b''.getNetworkMillis (mb + δ) + lag := by
  have h1 := own_heartbeat_time ra pa ht hq hmem hqt
  have h2 := sync_exact rb hsb hears hqt htb q.timeField (timeField_bigEndian q) xb hnb (mb + δ)
  obtain ⟨r', hst, he⟩ := ra.cons_inv
  have h3 : e.post.millisOffset = e.pre.millisOffset := by
    apply offset_step r'.wf hst
    rintro ⟨_, p, hp, _⟩
    rw [show (Entry.heard ⟨e.pre, e.op, e.post⟩) = Entry.heard e from rfl, hq] at hp
    cases hp
  rw [h2, h1, Node.getNetworkMillis, Node.getNetworkMillis, offset_exec ra.wf xa hna, ← he, h3,
    BitVec.add_comm mb, BitVec.add_sub_cancel]
  ac_rfl

/-- A device `b` whose local clock is 1000 s ahead, just powered on. -/
def Demo.fresh : Node := Node.init 1006000 (fun _ => 7) (.heartbeat, Vector.replicate 58 0)
  (.setControl, Vector.replicate 58 1)

open Demo in
/-- The hypotheses of C24 and C26 are met: device 0 of the election demo took over at 6000 ms
and its heartbeat reaches `fresh` at local time 1006000, which sets its clock back. -/
example : ∃ e ha b', Run .arduino 0 (e :: ha) (boot 0).2 ∧ ProperUse ha ∧ Entry.IsTick e ∧
    Entry.heard e = none ∧ beat 0 ∈ Entry.transmitted e ∧ (beat 0).type = .heartbeat ∧
    Run .host 1006000 [] fresh ∧ fresh.getCurrentState = .slave ∧
    Hears fresh (some (beat 0)) (beat 0) ∧
    fresh.radioTick .host 1006000 (some (beat 0)) = .ok b' ∧
    (6000 : U32).toNat = bigEndian (beat 0).data[0] (beat 0).data[1] (beat 0).data[2]
      (beat 0).data[3] ∧
    b'.getNetworkMillis 1006010 = 6010 := by
  have hlen : (boot 0).1.map (fun e => (summary e, Entry.transmitted e)) =
      [(⟨6000, true, .slave, .master, none, [.heartbeat], true⟩, [beat 0])] := by decide +kernel
  have hrun := boot_run 0
  obtain ⟨e, he⟩ : ∃ e, (boot 0).1 = [e] := by
    rcases h : (boot 0).1 with _ | ⟨e, _ | ⟨x, l⟩⟩ <;> rw [h] at hlen <;> simp at hlen
    exact ⟨e, rfl⟩
  rw [he] at hlen hrun
  simp only [List.map_cons, List.map_nil, List.cons.injEq, Prod.mk.injEq, and_true] at hlen
  obtain ⟨hsum, htr⟩ := hlen
  have hown : Entry.OwnHeartbeat e :=
    ownHeartbeat_of_summary (by rw [hsum]) (by rw [hsum]) (by rw [hsum]; decide)
  have rf : Run .host 1006000 [] fresh := ⟨_, _, _, .nil⟩
  have hd : fresh.delivered (some (beat 0)) = some (beat 0) := by decide +kernel
  have hok : (match fresh.radioTick .host 1006000 (some (beat 0)) with
    | .ok s => decide (s.millisOffset = 6000 - 1006000)
    | .error _ => false) = true := by decide +kernel
  split at hok
  · rename_i b' hb'
    refine ⟨e, [], b', hrun, (fun _ h => by cases h), hown.1, hown.2.1, by rw [htr]; simp,
      by decide +kernel, rf, rfl, hears_of_delivered rf.wf hd, hb', by decide +kernel, ?_⟩
    rw [Node.getNetworkMillis, of_decide_eq_true hok]
    decide
  · cases hok

end Firefly.Props
