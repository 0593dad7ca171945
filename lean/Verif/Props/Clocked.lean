import Verif.Lemmas.Clocked
import Verif.Props.ClockSync

/-! # The timing promises on a clock that advances while the code runs (C154) -/

namespace Firefly.Props
open Spec

/-- A step of a run, taken apart. -/
theorem _root_.Firefly.PacedRun.cons_inv {plat t₀ x h s} (r : PacedRun plat t₀ (x :: h) s) :
    PacedRun plat t₀ h x.entry.pre ∧ x.entry.post = s ∧
      ((∃ rx, x.entry.op = .radioTick x.reads.first rx ∧
          x.entry.pre.radioTickR plat x.reads rx = .ok x.entry.post) ∨
        ((∀ now rx, x.entry.op ≠ .radioTick now rx) ∧ x.reads = .const x.entry.op.time ∧
          x.entry.op.step plat x.entry.pre = .ok x.entry.post)) := by
  obtain ⟨rand, j, j', y⟩ := r
  cases y with
  | tick r rx hx hst => exact ⟨⟨_, _, _, hx⟩, rfl, .inl ⟨rx, rfl, hst⟩⟩
  | call op hx hn hst => exact ⟨⟨_, _, _, hx⟩, rfl, .inr ⟨hn, rfl, hst⟩⟩

theorem _root_.Firefly.PacedRun.wf {plat t₀ h s} (r : PacedRun plat t₀ h s) : s.WF := by
  obtain ⟨rand, j, j', y⟩ := r
  exact y.wf .init

theorem paced_hb {plat t₀ x h s} (r : PacedRun plat t₀ (x :: h) s) (c : Advancing t₀ (x :: h))
    (p : ProperUse ((x :: h).map Timed.entry)) : PacedInv t₀ h x.entry.pre ∧ HbStepR x := by
  have o := Advancing.cons c
  have p' := (ProperUse.cons p).1
  obtain ⟨rand, j, j', y⟩ := r
  cases y with
  | tick r rx hx hst =>
    exact ⟨hx.inv p' o.rest, hb_tickR (hx.wf .init) (hx.instruction p') hst o⟩
  | call op hx hn hst =>
    exact ⟨hx.inv p' o.rest, hb_callR (hx.wf .init) (hx.instruction p') hn hst
      (o.bound _ (by simp [Reads.list, Reads.const]))⟩

/-- C154. A slave becomes master only when the step begins more than 5000 ms after power-on and after
the beginning of every step in which it heard a master or resigned. -/
theorem paced_promoted_only_after_silence {plat t₀ x h s} (r : PacedRun plat t₀ (x :: h) s)
    (c : Advancing t₀ (x :: h)) (p : ProperUse ((x :: h).map Timed.entry))
    (hp : Entry.Promoted x.entry) :
    t₀.toNat + 5000 < began x ∧ (∀ y ∈ h, SignStep y → began y + 5000 < began x) ∧
    Entry.heard x.entry = none := by
  obtain ⟨i, b⟩ := paced_hb r c p
  have hs : x.entry.pre.state = .slave := hp.1
  have hs' : x.entry.post.state = .master := hp.2
  cases b with
  | keep h1 => rw [h1, hs] at hs'; cases hs'
  | rearm h1 => rw [h1] at hs'; cases hs'
  | beat _ _ h1 _ _ h4 =>
    have h1' := BitVec.lt_def.mp h1
    refine ⟨?_, ?_, h4.2.1⟩
    · have := i.since hs
      simp only [began]; omega
    · intro y hy hy'
      have := i.sinceSign hs y hy hy'
      simp only [began] at this ⊢; omega

/-- C154. A slave that hears nothing new in a tick that begins 7000 ms after power-on and after the end
of every step in which it heard a master or resigned becomes master in it. -/
theorem paced_promoted_after_silence {plat t₀ x h s} (r : PacedRun plat t₀ (x :: h) s)
    (c : Advancing t₀ (x :: h)) (p : ProperUse ((x :: h).map Timed.entry))
    (ht : Entry.IsTick x.entry) (hq : Entry.heard x.entry = none)
    (hs : x.entry.pre.getCurrentState = .slave)
    (h0 : t₀.toNat + 7000 ≤ began x) (h1 : ∀ y ∈ h, SignStep y → ended y + 7000 ≤ began x) :
    Entry.Promoted x.entry := by
  obtain ⟨i, b⟩ := paced_hb r c p
  obtain ⟨r', _, h2⟩ := r.cons_inv
  have hlt : x.entry.pre.timers.heartbeat.toNat < x.reads.first.toNat := by
    simp only [began] at h0 h1
    rcases i.until_ hs with h | ⟨y, hy, hy', h⟩
    · omega
    · have := h1 y hy hy'; omega
  refine ⟨hs, ?_⟩
  rcases h2 with ⟨rx, hop, hst⟩ | ⟨hn, _, _⟩
  · have hd : x.entry.pre.delivered rx = none := by
      rw [← heard_tick (s' := x.entry.post) (now := x.reads.first) r'.wf, ← hop]; exact hq
    have hx := (Node.timerExpiredR_heartbeat (r := x.reads) r'.wf).2 ⟨i.on, BitVec.lt_def.mpr hlt⟩
    have hs' : x.entry.pre.state = .slave := hs
    generalize x.entry.post = post at hst
    cases Node.radioTickR_cases r'.wf hst <;> simp_all [Node.getCurrentState]
    rfl
  · obtain ⟨now, rx, h⟩ := ht
    exact absurd h (hn _ _)

/-- C154. Any two heartbeats that a device sends of its own begin more than 1000 ms apart. -/
theorem paced_heartbeats_apart {plat t₀ x h s} (r : PacedRun plat t₀ (x :: h) s)
    (c : Advancing t₀ (x :: h)) (p : ProperUse ((x :: h).map Timed.entry))
    (ho : Entry.OwnHeartbeat x.entry) :
    ∀ y ∈ h, Entry.OwnHeartbeat y.entry → began y + 1000 < began x := by
  obtain ⟨i, b⟩ := paced_hb r c p
  intro y hy hy'
  have := i.own y hy hy'
  cases b with
  | keep _ _ h3 => exact absurd ho h3
  | rearm _ _ _ h3 => exact absurd ho h3
  | beat _ _ h1 =>
    have h1' := BitVec.lt_def.mp h1
    simp only [began] at this ⊢; omega

/-- C154. A master that hears nothing new in a tick that begins more than 1000 ms after the end of each
step in which it sent a heartbeat of its own sends one in it. -/
theorem paced_heartbeat_due {plat t₀ x h s} (r : PacedRun plat t₀ (x :: h) s)
    (c : Advancing t₀ (x :: h)) (p : ProperUse ((x :: h).map Timed.entry))
    (ht : Entry.IsTick x.entry) (hq : Entry.heard x.entry = none)
    (hs : x.entry.pre.getCurrentState = .master)
    (h1 : ∀ y ∈ h, Entry.OwnHeartbeat y.entry → ended y + 1000 < began x) :
    Entry.OwnHeartbeat x.entry := by
  obtain ⟨i, b⟩ := paced_hb r c p
  obtain ⟨r', _, h2⟩ := r.cons_inv
  have hlt : x.entry.pre.timers.heartbeat.toNat < x.reads.first.toNat := by
    obtain ⟨y, hy, hy', h⟩ := i.ownLast hs
    have := h1 y hy hy'
    simp only [began] at this; omega
  refine ⟨ht, hq, ?_⟩
  rcases h2 with ⟨rx, hop, hst⟩ | ⟨hn, _, _⟩
  · have hd : x.entry.pre.delivered rx = none := by
      rw [← heard_tick (s' := x.entry.post) (now := x.reads.first) r'.wf, ← hop]; exact hq
    have hx := (Node.timerExpiredR_heartbeat (r := x.reads) r'.wf).2 ⟨i.on, BitVec.lt_def.mpr hlt⟩
    have hs' : x.entry.pre.state = .master := hs
    unfold Entry.transmitted
    generalize x.entry.post = post at hst
    cases Node.radioTickR_cases r'.wf hst <;> simp_all [Node.getCurrentState]
    rfl
  · obtain ⟨now, rx, h⟩ := ht
    exact absurd h (hn _ _)

theorem saysTime_iff {p : Packet} {t : U32} : SaysTime p t ↔ p.type = .heartbeat ∧ t = p.timeField := by
  constructor
  · rintro ⟨h1, h2⟩
    exact ⟨h1, BitVec.eq_of_toNat_eq (by rw [h2, timeField_bigEndian]; rfl)⟩
  · rintro ⟨h1, rfl⟩
    exact ⟨h1, timeField_bigEndian p⟩

/-- C154. The heartbeats that a device sends of its own say the network time that the device shows at a
reading within the step. -/
theorem paced_heartbeat_time {plat t₀ x h s} (r : PacedRun plat t₀ (x :: h) s)
    (p : ProperUse ((x :: h).map Timed.entry)) (ht : Entry.IsTick x.entry)
    (hq : Entry.heard x.entry = none) {q : Packet} (hm : q ∈ Entry.transmitted x.entry)
    (hqt : q.type = .heartbeat) :
    ∃ a ∈ x.reads.list, SaysTime q (x.entry.pre.getNetworkMillis a) ∧
      ∀ t, x.entry.post.getNetworkMillis t = x.entry.pre.getNetworkMillis t := by
  obtain ⟨r', _, h2⟩ := r.cons_inv
  have wf := r'.wf
  have hi : IsInstruction x.entry.pre.setEffectPacket := by
    obtain ⟨_, _, _, y⟩ := r'
    exact y.instruction (ProperUse.cons p).1
  have key : ∀ (x : Packet) (t : U32), (x.writeHeartbeat t).timeField = t := by
    intro x t
    have := (heartbeat_roundtrip .arduino x t).1
    rw [own_heartbeat_time.readTime_arduino] at this
    exact Except.ok.inj this
  rcases h2 with ⟨rx, hop, hst⟩ | ⟨hn, _, _⟩
  · have hd : x.entry.pre.delivered rx = none := by
      rw [← heard_tick (s' := x.entry.post) (now := x.reads.first) r'.wf, ← hop]; exact hq
    unfold Entry.transmitted at hm
    generalize x.entry.post = post at hst hm
    simp only [saysTime_iff, hqt, true_and]
    cases Node.radioTickR_cases wf hst with
    | takeOver hd hs ht =>
      simp [Node.afterBeginMasterR] at hm
      subst hm
      exact ⟨x.reads.beat, by simp [Reads.list], (key _ _).symm, fun _ => rfl⟩
    | beat hd hs ht =>
      simp at hm
      subst hm
      exact ⟨x.reads.event, by simp [Reads.list], (key _ _).symm, fun _ => rfl⟩
    | _ => simp_all [IsInstruction, Packet.writeSetEffect]
  · obtain ⟨now, rx, h⟩ := ht
    exact absurd h (hn _ _)

/-- C154. A slave that hears a heartbeat shows the network time that it says, counted from a reading
within the step. -/
theorem paced_sync {plat t₀ x h s} (r : PacedRun plat t₀ (x :: h) s) {T : U32} (ht : HeardTime x T) :
    ∃ b ∈ x.reads.list, ∀ d, x.entry.post.getNetworkMillis (b + d) = T + d := by
  obtain ⟨r', _, h2⟩ := r.cons_inv
  obtain ⟨hs, q, hh, hT⟩ := ht
  obtain ⟨hqt, rfl⟩ := saysTime_iff.1 hT
  rcases h2 with ⟨rx, hop, hst⟩ | ⟨hn, _, _⟩
  · have hd : x.entry.pre.delivered rx = some q := by
      rw [← heard_tick (s' := x.entry.post) (now := x.reads.first) r'.wf, ← hop]; exact hh
    have hs' : x.entry.pre.state = .slave := hs
    refine ⟨x.reads.event, by simp [Reads.list], ?_⟩
    have : x.entry.post.millisOffset = q.timeField - x.reads.event := by
      generalize x.entry.post = post at hst
      cases Node.radioTickR_cases r'.wf hst <;> simp_all
    intro d
    rw [Node.getNetworkMillis, this]
    bv_omega
  · unfold Entry.heard at hh
    split at hh
    · rename_i h; exact absurd h (hn _ _)
    · cases hh

/-- C154. Nothing else changes the network time. -/
theorem paced_time_kept {plat t₀ x h s} (r : PacedRun plat t₀ (x :: h) s)
    (hn : ∀ T, ¬ HeardTime x T) (t : U32) :
    x.entry.post.getNetworkMillis t = x.entry.pre.getNetworkMillis t := by
  obtain ⟨r', _, h2⟩ := r.cons_inv
  have hns : ¬ SyncStep x.entry := by
    rintro ⟨hs, q, hh, hq⟩
    exact hn q.timeField ⟨hs, q, hh, saysTime_iff.2 ⟨hq, rfl⟩⟩
  have ho : x.entry.post.millisOffset = x.entry.pre.millisOffset := by
    rcases h2 with ⟨rx, hop, hst⟩ | ⟨_, _, hst⟩
    · have hh := heard_tick (s' := x.entry.post) (now := x.reads.first) (rx := rx) r'.wf
      have hd : Entry.heard x.entry = x.entry.pre.delivered rx := by
        rw [← hh, ← hop]
      simp only [SyncStep, hd, Node.getCurrentState] at hns
      generalize x.entry.post = post at hst
      cases Node.radioTickR_cases r'.wf hst with
      | heartbeat p hd hs hp => exact absurd ⟨hs, p, hd, hp⟩ hns
      | packet p t _ hd hs ht hc =>
        refine offset_step (op := .radioTick t rx) r'.wf hc ?_
        rintro ⟨hs, q, hh, hq⟩
        rw [heard_tick r'.wf] at hh
        exact hns ⟨hs, q, hh, hq⟩
      | _ => simp [Node.afterBeginMasterR]
    · exact offset_step r'.wf hst hns
  simp only [Node.getNetworkMillis, ho]

/-- C154. When a slave hears a heartbeat that another device sent of its own, its network clock shows
from then on what the sender's clock shows, later by exactly the time that passed between a moment in the
sender's step and a moment in its own. -/
theorem paced_slave_follows_sender {plat plat' ta x ha a tb y hb b}
    (ra : PacedRun plat ta (x :: ha) a) (pa : ProperUse ((x :: ha).map Timed.entry))
    (ht : Entry.IsTick x.entry) (hq : Entry.heard x.entry = none) {q : Packet}
    (hm : q ∈ Entry.transmitted x.entry) (hqt : q.type = .heartbeat)
    (rb : PacedRun plat' tb (y :: hb) b) (hs : y.entry.pre.getCurrentState = .slave)
    (hh : Entry.heard y.entry = some q) :
    ∃ i ∈ x.reads.list, ∃ j ∈ y.reads.list,
      ∀ d, b.getNetworkMillis (j + d) = a.getNetworkMillis (i + d) := by
  obtain ⟨i, hi, hT, hk⟩ := paced_heartbeat_time ra pa ht hq hm hqt
  obtain ⟨j, hj, h⟩ := paced_sync rb ⟨hs, q, hh, hT⟩
  refine ⟨i, hi, j, hj, fun d => ?_⟩
  rw [← rb.cons_inv.2.1, ← ra.cons_inv.2.1, h d, hk]
  simp only [Node.getNetworkMillis]
  ac_rfl

/-- The model of `Model/StateMachine`, in which the clock stands still during a tick, is the special case
of equal readings. -/
theorem paced_of_standing_clock (plat : Platform) (t : U32) (rx : Option Packet) (s : Node) :
    s.radioTickR plat (.const t) rx = s.radioTick plat t rx := Node.radioTickR_const

end Firefly.Props
