import Verif.Lemmas.Wrap
import Verif.Lemmas.Heartbeat

/-! # The wrap-around of a device's clock (C163) -/

namespace Firefly.Props
open Spec

/-- C163. A slave that hears a heartbeat or claim when fewer than 5 s are left until its clock wraps around
takes over in its next silent radio tick before the wrap-around, however soon that is. -/
theorem wrap_false_alarm {plat t₀ e h s} (r : Run plat t₀ (e :: h) s) (p : ProperUse (e :: h))
    (hm : Entry.HeardMaster e) (hs : s.getCurrentState = .slave) (hl : Entry.LeftBelow 5000 e)
    (now : U32) (rx : Option Packet) (hq : Quiet s rx) (hn : Entry.time e ≤ now) {s' : Node}
    (hst : s.radioTick plat now rx = .ok s') : s'.getCurrentState = .master := by
  have wf := r.wf
  obtain ⟨r', st, rfl⟩ := r.cons_inv
  have hs : e.post.state = .slave := hs
  have due : e.post.timers.heartbeat ≠ 0 ∧ e.post.timers.heartbeat < now := by
    cases Node.hb_stepW (s := e.pre) r'.wf (r'.instruction (ProperUse.cons p).1) st with
    | keep k _ _ k' => exact absurd hm (k' (k ▸ hs))
    | rearm _ ht =>
      obtain ⟨n, hn', ht, _⟩ := ht
      have l : (BitVec.ofNat 32 (5000 + n)).toNat = 5000 + n := by
        rw [BitVec.toNat_ofNat]; omega
      have ht : e.post.timers.heartbeat = Entry.time e + BitVec.ofNat 32 (5000 + n) := ht
      rw [ht]
      unfold Entry.LeftBelow at hl
      exact wrapped_due (by omega) (by omega) hn
    | takeOver _ k => exact absurd (hs.symm.trans k) (by decide)
    | beat _ k => exact absurd (hs.symm.trans k) (by decide)
  obtain ⟨out, m, hq⟩ := hq
  have hd : e.post.delivered rx = none := by
    cases hd : e.post.delivered rx with
    | none => rfl
    | some q => rw [Node.receive_some wf.idx hd] at hq; cases hq
  cases Node.radioTick_cases wf hst with
  | slaveQuiet _ _ ht => exact absurd ((Node.timerExpired_heartbeat wf).2 due) ht
  | takeOver => rfl
  | masterQuiet _ e | beat _ e | change _ e | «repeat» _ e => rw [hs] at e; cases e
  | slaveHeartbeat _ e | slaveClaim _ e | slaveEffect _ e | slaveControl _ e | other _ _ _ e
  | electionWon _ e | electionLost _ e | masterClaim _ e | masterEffect _ e | masterControl _ e =>
    rw [hd] at e; cases e

/-- What an own heartbeat does to the timer. -/
theorem own_heartbeat_timer {plat t₀ e h s} (r : Run plat t₀ (e :: h) s) (p : ProperUse (e :: h))
    (ho : Entry.OwnHeartbeat e) : s.WF ∧ s.timers.heartbeat = Entry.time e + 1000 := by
  refine ⟨r.wf, ?_⟩
  obtain ⟨r', st, rfl⟩ := r.cons_inv
  cases Node.hb_stepW (s := e.pre) r'.wf (r'.instruction (ProperUse.cons p).1) st with
  | keep _ _ k => exact absurd ho k
  | rearm _ _ k => exact absurd ho k
  | takeOver _ _ _ _ k => exact k
  | beat _ _ _ _ k => exact k

/-- C163. A master that sends a heartbeat when less than 1 s is left until its clock wraps around sends one
in every silent radio tick from then until the wrap-around. -/
theorem wrap_heartbeat_flood {plat t₀ e h s} (r : Run plat t₀ (e :: h) s) (p : ProperUse (e :: h))
    (ho : Entry.OwnHeartbeat e) (hl : Entry.LeftBelow 1000 e) {h' s'} (x : Exec plat s h' s')
    (hq : ∀ e' ∈ h', QuietReign e' ∧ Entry.time e ≤ Entry.time e') :
    ∀ e' ∈ h', Entry.OwnHeartbeat e' := by
  obtain ⟨wf, t⟩ := own_heartbeat_timer r p ho
  suffices k : (∃ t : U32, Entry.time e ≤ t ∧ (∀ e' ∈ h', Entry.time e ≤ t) ∧
      s'.timers.heartbeat.toNat < 1000 ∧ s'.timers.heartbeat ≠ 0) ∧
      ∀ e' ∈ h', Entry.OwnHeartbeat e' from k.2
  have small : ∀ {u : U32}, Entry.time e ≤ u → (u + 1000).toNat < 1000 ∧ u + 1000 ≠ 0 := by
    intro u hu
    unfold Entry.LeftBelow at hl
    rw [BitVec.le_def] at hu
    have th : (1000 : U32).toNat = 1000 := rfl
    have := u.isLt
    have w := wrapped (t := u) (d := 1000) (by omega)
    refine ⟨by omega, fun z => ?_⟩
    rw [z] at w
    have z : (0 : U32).toNat = 0 := rfl
    omega
  induction x with
  | nil =>
    refine ⟨⟨Entry.time e, ?_, (fun _ k => absurd k List.not_mem_nil), ?_⟩, fun _ k => absurd k List.not_mem_nil⟩
    · rw [BitVec.le_def]; omega
    · rw [t]; exact small (by rw [BitVec.le_def]; omega)
  | cons op x hst ih =>
    obtain ⟨⟨_, _, _, h1, h0⟩, ih⟩ := ih fun e' he' => hq e' (List.mem_cons_of_mem _ he')
    obtain ⟨q, le⟩ := hq _ List.mem_cons_self
    have le : Entry.time e ≤ op.time := le
    have k := (quiet_reign (x.wf wf) hst q).2.1 ⟨h0, by
      unfold Entry.LeftBelow at hl
      rw [BitVec.le_def] at le
      rw [BitVec.lt_def]
      omega⟩
    refine ⟨⟨op.time, le, fun _ _ => le, ?_⟩, ?_⟩
    · rw [k.2.1]; exact small le
    · intro e' he'
      rcases List.mem_cons.1 he' with rfl | he'
      · exact k.1
      · exact ih e' he'

/-- What an own choice does to the timer. -/
theorem own_choice_timer {plat t₀ e h s q} (r : Run plat t₀ (e :: h) s)
    (hf : FreshChoice plat e q) (hn : ¬ Repeats e q) :
    s.WF ∧ s.timers.changeEffect = Entry.time e + 60000 := by
  refine ⟨r.wf, ?_⟩
  obtain ⟨r', st, rfl⟩ := r.cons_inv
  cases in_step (s := e.pre) r'.wf st with
  | keep _ _ _ _ _ _ _ htx =>
    exact absurd (.inl hf.type) (htx q (by
      have := hf.sent
      rw [show (⟨e.pre, e.op, e.post⟩ : Entry) = e from rfl, this]
      exact List.mem_cons_self))
  | takeOver _ hs => have := hf.master; rw [Node.getCurrentState, hs] at this; cases this
  | locally p hop => obtain ⟨_, _, ht⟩ := hf.tick; rw [hop] at ht; cases ht
  | slaveHeard p hh => have := hf.silent; rw [show e = ⟨e.pre, e.op, e.post⟩ from rfl, hh] at this; cases this
  | masterHeard p hh => have := hf.silent; rw [show e = ⟨e.pre, e.op, e.post⟩ from rfl, hh] at this; cases this
  | repeats q' hr =>
    have h1 := hr.sent
    rw [show (⟨e.pre, e.op, e.post⟩ : Entry) = e from rfl, hf.sent] at h1
    cases h1
    exact absurd hr hn
  | change _ _ _ _ _ _ hce => exact hce

/-- C163. A master that chooses an effect of its own when less than 1 minute is left until its clock wraps
around does not keep it: in every silent radio tick from then until the wrap-around it chooses another one,
except where it sends a heartbeat instead. (A choice that happens to equal the current instruction cannot be
told from a repetition and is not meant.) -/
theorem wrap_choice_flood {plat t₀ e h s q} (r : Run plat t₀ (e :: h) s)
    (hf : FreshChoice plat e q) (hn : ¬ Repeats e q) (hl : Entry.LeftBelow 60000 e) {h' s'}
    (x : Exec plat s h' s') (hq : ∀ e' ∈ h', QuietReign e' ∧ Entry.time e ≤ Entry.time e') :
    ∀ e' ∈ h', Entry.OwnHeartbeat e' ∨ ∃ q', FreshChoice plat e' q' := by
  obtain ⟨wf, t⟩ := own_choice_timer r hf hn
  suffices k : (s'.timers.changeEffect.toNat < 60000 ∧ s'.timers.changeEffect ≠ 0) ∧
      ∀ e' ∈ h', Entry.OwnHeartbeat e' ∨ ∃ q', FreshChoice plat e' q' from k.2
  have small : ∀ {u : U32}, Entry.time e ≤ u → (u + 60000).toNat < 60000 ∧ u + 60000 ≠ 0 := by
    intro u hu
    unfold Entry.LeftBelow at hl
    rw [BitVec.le_def] at hu
    have th : (60000 : U32).toNat = 60000 := rfl
    have := u.isLt
    have w := wrapped (t := u) (d := 60000) (by omega)
    refine ⟨by omega, fun z => ?_⟩
    rw [z] at w
    have z : (0 : U32).toNat = 0 := rfl
    omega
  induction x with
  | nil => exact ⟨by rw [t]; exact small (by rw [BitVec.le_def]; omega), fun _ k => absurd k List.not_mem_nil⟩
  | @cons h s₁ op s₂ x hst ih =>
    obtain ⟨⟨h1, h0⟩, ih⟩ := ih fun e' he' => hq e' (List.mem_cons_of_mem _ he')
    obtain ⟨q, le⟩ := hq _ List.mem_cons_self
    have le : Entry.time e ≤ op.time := le
    have k := quiet_reign (x.wf wf) hst q
    have due : s₁.timers.changeEffect ≠ 0 ∧ s₁.timers.changeEffect < op.time := ⟨h0, by
      unfold Entry.LeftBelow at hl
      rw [BitVec.le_def] at le
      rw [BitVec.lt_def]
      omega⟩
    have rest : (s₂.timers.changeEffect.toNat < 60000 ∧ s₂.timers.changeEffect ≠ 0) ∧
        (Entry.OwnHeartbeat ⟨s₁, op, s₂⟩ ∨ ∃ q', FreshChoice plat ⟨s₁, op, s₂⟩ q') := by
      by_cases d : s₁.timers.heartbeat ≠ 0 ∧ s₁.timers.heartbeat < op.time
      · obtain ⟨a, _, b⟩ := k.2.1 d
        exact ⟨by rw [b]; exact ⟨h1, h0⟩, .inl a⟩
      · obtain ⟨a, b⟩ := (k.2.2 d).2 due
        exact ⟨by rw [b]; exact small le, .inr a⟩
    refine ⟨rest.1, fun e' he' => ?_⟩
    rcases List.mem_cons.1 he' with rfl | he'
    · exact rest.2
    · exact ih e' he'

/-- C163. After the wrap-around the rotation goes on: the last choice made before it, at `t`, is kept until
`t` + 60 s on the new count, if undisturbed, and is followed by another soon after. -/
theorem wrap_rotation_resumes {plat t₀ e h s q} (r : Run plat t₀ (e :: h) s)
    (hf : FreshChoice plat e q) (hn : ¬ Repeats e q) (hl : Entry.LeftBelow 60000 e) :
    RotatesAt plat s ((Entry.time e).toNat + 60000 - 2 ^ 32) := by
  obtain ⟨wf, t⟩ := own_choice_timer r hf hn
  have th : (60000 : U32).toNat = 60000 := rfl
  unfold Entry.LeftBelow at hl
  have w := wrapped (t := Entry.time e) (d := 60000) (by omega)
  rw [← t] at w
  have := rotates_of_timer (plat := plat) wf (by
    intro z
    rw [z] at w
    have z : (0 : U32).toNat = 0 := rfl
    omega)
  rwa [w] at this

/-- C163. A master that chooses an effect of its own exactly 1 minute before its clock wraps around never
rotates again, if undisturbed. -/
theorem wrap_rotation_stops {plat t₀ e h s q} (r : Run plat t₀ (e :: h) s)
    (hf : FreshChoice plat e q) (hn : ¬ Repeats e q) (ht : (Entry.time e).toNat + 60000 = 2 ^ 32) :
    NeverRotates plat s := by
  obtain ⟨wf, t⟩ := own_choice_timer r hf hn
  apply never_of_timer wf
  rw [t, show Entry.time e = BitVec.ofNat 32 (2 ^ 32 - 60000) from by
    apply BitVec.eq_of_toNat_eq; rw [BitVec.toNat_ofNat]; omega]
  rfl

/-- A heartbeat timer that is off or not reached stays so. -/
theorem unreached {plat} {s : Node} (wf : s.WF) (hi : IsInstruction s.setEffectPacket) {h' s'}
    (x : Exec plat s h' s') (p : ProperUse h')
    (hm : ∀ e ∈ h', ¬ (Entry.HeardMaster e ∧ e.post.getCurrentState = .slave))
    (hD : s.timers.heartbeat = 0 ∨ ∀ e ∈ h', Entry.time e ≤ s.timers.heartbeat) :
    IsInstruction s'.setEffectPacket ∧ s'.timers.heartbeat = s.timers.heartbeat ∧ s'.state = s.state ∧
      ∀ e ∈ h', ¬ Entry.OwnHeartbeat e := by
  induction x with
  | nil => exact ⟨hi, rfl, rfl, fun _ k => absurd k List.not_mem_nil⟩
  | @cons h s₁ op s₂ x hst ih =>
    obtain ⟨i, t, st, ih⟩ := ih (ProperUse.cons p).1 (fun e he => hm e (List.mem_cons_of_mem _ he))
      (hD.imp id fun k e he => k e (List.mem_cons_of_mem _ he))
    have wf₁ := x.wf wf
    have late : ¬ (s₁.timers.heartbeat ≠ 0 ∧ s₁.timers.heartbeat < op.time) := by
      rintro ⟨h0, h1⟩
      rcases hD with z | le
      · exact h0 (t.trans z)
      · have := le _ List.mem_cons_self
        have this : op.time ≤ s.timers.heartbeat := this
        rw [t, BitVec.lt_def] at h1
        rw [BitVec.le_def] at this
        omega
    refine ⟨Node.step_instruction wf₁ i (fun now q ho => p _ List.mem_cons_self now q ho) hst, ?_⟩
    cases Node.hb_stepW wf₁ i hst with
    | keep a b c =>
      refine ⟨b.trans t, a.trans st, fun e he => ?_⟩
      rcases List.mem_cons.1 he with rfl | he
      · exact c
      · exact ih e he
    | rearm a _ _ b => exact absurd ⟨b, a⟩ (hm _ List.mem_cons_self)
    | takeOver _ _ a b => exact absurd ⟨a, b⟩ late
    | beat _ _ a b => exact absurd ⟨a, b⟩ late

/-- C163. A master that sends a heartbeat exactly 1 s before its clock wraps around sends none ever again,
and one that sends a heartbeat earlier and whose clock wraps around before it looks at the time after the
second is over sends none until its clock is past that time again, 49.7 days later; in both cases until it
gives up being master. -/
theorem wrap_silent_master {plat t₀ e h s} (r : Run plat t₀ (e :: h) s) (p : ProperUse (e :: h))
    (ho : Entry.OwnHeartbeat e) {h' s'} (x : Exec plat s h' s') (p' : ProperUse h')
    (hm : ∀ e' ∈ h', e'.post.getCurrentState = .master)
    (ht : (Entry.time e).toNat + 1000 = 2 ^ 32 ∨ ((Entry.time e).toNat + 1000 < 2 ^ 32 ∧
      ∀ e' ∈ h', (Entry.time e').toNat ≤ (Entry.time e).toNat + 1000)) :
    ∀ e' ∈ h', ¬ Entry.OwnHeartbeat e' := by
  obtain ⟨wf, t⟩ := own_heartbeat_timer r p ho
  refine (unreached wf (r.instruction p) x p' (fun e' he' k => ?_) ?_).2.2.2
  · rw [hm e' he'] at k; cases k.2
  · have th : (1000 : U32).toNat = 1000 := rfl
    rcases ht with z | ⟨z, le⟩
    · left
      rw [t, show Entry.time e = BitVec.ofNat 32 (2 ^ 32 - 1000) from by
        apply BitVec.eq_of_toNat_eq; rw [BitVec.toNat_ofNat]; omega]
      rfl
    · right
      intro e' he'
      rw [t, BitVec.le_def, BitVec.toNat_add, th]
      have := le e' he'
      omega

/-- C163. A slave that hears a heartbeat or claim, and whose time-out (5 s plus a random number of ms below
2000) then ends exactly when its clock wraps around, never takes over until it hears one again; and one whose
time-out ends earlier, but whose clock wraps around before it looks at the time after that, does not take
over until its clock is past that time again. -/
theorem wrap_deaf_slave {plat t₀ e h s} (r : Run plat t₀ (e :: h) s) (p : ProperUse (e :: h))
    (hm : Entry.HeardMaster e) (hs : e.pre.getCurrentState = .slave) {h' s'} (x : Exec plat s h' s')
    (p' : ProperUse h') (hq : ∀ e' ∈ h', ¬ Entry.HeardMaster e')
    (ht : (Entry.time e).toNat + 5000 + e.pre.rand 0 % 2000 = 2 ^ 32 ∨
      ((Entry.time e).toNat + 5000 + e.pre.rand 0 % 2000 < 2 ^ 32 ∧
        ∀ e' ∈ h', (Entry.time e').toNat ≤ (Entry.time e).toNat + 5000 + e.pre.rand 0 % 2000)) :
    s'.getCurrentState = .slave := by
  have wf := r.wf
  have i := r.instruction p
  obtain ⟨r', st, rfl⟩ := r.cons_inv
  have hs : e.pre.state = .slave := hs
  have k : e.post.state = .slave ∧
      e.post.timers.heartbeat = Entry.time e + BitVec.ofNat 32 (5000 + e.pre.rand 0 % 2000) := by
    cases Node.hb_stepW (s := e.pre) r'.wf (r'.instruction (ProperUse.cons p).1) st with
    | keep _ _ _ k' => exact absurd hm (k' hs)
    | rearm a ht =>
      obtain ⟨n, _, b, c⟩ := ht
      rw [c hs] at b
      exact ⟨a, b⟩
    | takeOver _ _ _ _ _ _ k => exact absurd hm k
    | beat _ _ _ _ _ _ k => exact absurd hm k
  have u := unreached wf i x p' (fun e' he' k => hq e' he' k.1) ?_
  · exact u.2.2.1.trans k.1
  · have l : (BitVec.ofNat 32 (5000 + e.pre.rand 0 % 2000)).toNat = 5000 + e.pre.rand 0 % 2000 := by
      rw [BitVec.toNat_ofNat]; omega
    rw [k.2]
    rcases ht with z | ⟨z, le⟩
    · left
      apply BitVec.eq_of_toNat_eq
      rw [BitVec.toNat_add, l, ← Nat.add_assoc, z]
      rfl
    · right
      intro e' he'
      rw [BitVec.le_def, BitVec.toNat_add, l]
      have := le e' he'
      omega

end Firefly.Props
