import Verif.Lemmas.Heartbeat
import Verif.Props.Packet

/-! # Take-over and heartbeat cadence (C17–C20) -/

namespace Firefly.Props
open Spec

/-- C17.  A device that turns master does so strictly more than 5000 ms after power-on, after
every earlier demotion and after every heartbeat or claim it heard before. -/
theorem no_takeover_before_silence {plat t₀ e h s} (r : Run plat t₀ (e :: h) s)
    (c : Clock t₀ (e :: h)) (p : ProperUse (e :: h)) (hp : Entry.Promoted e) :
    ∀ t, Sign t₀ h t → t.toNat + 5000 < (Entry.time e).toNat := by
  intro t ht
  have inv := r.cons_inv.1.hbInv c.cons.1 (ProperUse.cons p).1
  have hlow := inv.slaveLow hp.1 t ht
  cases r.step c p with
  | keep hs _ _ _ =>
    have h1 := hp.1; have h2 := hp.2
    simp only [Node.getCurrentState] at h1 h2
    rw [hs, h1] at h2; cases h2
  | rearm hs _ _ _ _ =>
    have h2 := hp.2
    simp only [Node.getCurrentState] at h2
    rw [hs] at h2; cases h2
  | takeOver _ _ _ h1 _ _ _ => have := BitVec.lt_def.1 h1; omega
  | beat hs _ _ _ _ _ _ =>
    have h1 := hp.1
    simp only [Node.getCurrentState] at h1
    rw [hs] at h1; cases h1

/-- C18.  After 7000 ms without power-on, demotion, heartbeat or claim, a slave turns master in
the first radio tick in which it hears nothing new, and transmits exactly one packet in that
tick: a heartbeat carrying its network time. -/
theorem takeover_after_silence {plat t₀ h s} (r : Run plat t₀ h s) (c : Clock t₀ h)
    (p : ProperUse h) (hs : s.getCurrentState = .slave) (now : U32) (rx : Option Packet)
    (hq : Quiet s rx) (hsil : ∀ t, Sign t₀ h t → t.toNat + 7000 ≤ now.toNat) :
    ∃ s' q, s.radioTick plat now rx = .ok s' ∧ s'.getCurrentState = .master ∧
      Entry.transmitted ⟨s, .radioTick now rx, s'⟩ = [q] ∧ q.type = .heartbeat ∧
      q.readTimeFromHeartbeat plat = .ok (s.getNetworkMillis now) := by
  have inv := r.hbInv c p
  obtain ⟨t, ht, hhi⟩ := inv.slaveHigh hs
  have hlo := inv.slaveLow hs t ht
  have hsl := hsil t ht
  have hx : s.timerExpired now = .heartbeat := by
    rw [Node.timerExpired_heartbeat r.wf]
    constructor
    · intro h0; rw [h0] at hlo; simp at hlo
    · rw [BitVec.lt_def]; omega
  have hd := hq.delivered r.wf
  have h1 := Node.radioTick_takeOver (plat := plat) r.wf hd hs hx
  exact ⟨_, Node.stamped plat (s.packet.writeHeartbeat (s.getNetworkMillis now)) s, h1, rfl, by
    simp only [Entry.transmitted, Node.afterBeginMaster_sent, List.drop_left]; rfl, rfl,
    (heartbeat_roundtrip plat s.packet (s.getNetworkMillis now)).1⟩

/-- A slave that took over at 6000 ms (its random timeout is 5000 ms), having heard nothing. -/
example : ∃ h s, Run .arduino 0 h s ∧ Clock 0 h ∧ ProperUse h ∧
    ∃ e h', h = e :: h' ∧ Entry.Promoted e ∧ Entry.OwnHeartbeat e := by
  obtain ⟨h, s, r, e⟩ := run_of_summaries (plat := .arduino) (t₀ := 0) (rand := fun _ => 0)
    (ops := [.radioTick 3000 none, .endTick 3000, .radioTick 6000 none])
    (l := [⟨6000, true, .slave, .master, none, [.heartbeat], true⟩,
           ⟨3000, false, .slave, .slave, none, [], true⟩,
           ⟨3000, true, .slave, .slave, none, [], true⟩]) (by decide +kernel)
  refine ⟨h, s, r, clock_of_summaries e (by decide +kernel), proper_of_summaries e (by decide +kernel), ?_⟩
  rcases h with _ | ⟨x, y⟩
  · cases e
  · simp only [List.map_cons, List.cons.injEq] at e
    refine ⟨x, y, rfl, ⟨congrArg Summary.pre e.1, congrArg Summary.post e.1⟩, ?_⟩
    apply ownHeartbeat_of_summary <;> rw [e.1] <;> decide

/-- C19.  If at every step the last sign of a master (or power-on) is at most 5000 ms old, the
device has been a slave all the time. -/
theorem regular_signs_keep_slave {plat t₀ h s} (r : Run plat t₀ h s) (c : Clock t₀ h)
    (p : ProperUse h)
    (hreg : ∀ h₁ e h₂, h = h₁ ++ e :: h₂ →
      ∃ t, Sign t₀ h₂ t ∧ (Entry.time e).toNat ≤ t.toNat + 5000) :
    s.getCurrentState = .slave ∧ ∀ e ∈ h, e.post.getCurrentState = .slave := by
  induction h generalizing s with
  | nil =>
    obtain ⟨_, _, _, rfl⟩ := r.nil_inv
    exact ⟨rfl, by simp⟩
  | cons e h ih =>
    obtain ⟨r', hst, he⟩ := r.cons_inv
    obtain ⟨i1, i2⟩ := ih r' c.cons.1 (ProperUse.cons p).1
      (fun h₁ e' h₂ heq => hreg (e :: h₁) e' h₂ (by rw [heq]; rfl))
    have hsl : e.post.getCurrentState = .slave := by
      cases hps : e.post.getCurrentState with
      | slave => rfl
      | master =>
        obtain ⟨t, ht, hle⟩ := hreg [] e h rfl
        have := no_takeover_before_silence r c p ⟨i1, hps⟩ t ht
        omega
    refine ⟨he ▸ hsl, fun e' he' => ?_⟩
    rcases List.mem_cons.1 he' with rfl | h1
    · exact hsl
    · exact i2 e' h1

/-- Heartbeats heard every 5 s for 15 s. -/
example : ∃ h s, Run .host 0 h s ∧ Clock 0 h ∧ h.length = 3 ∧
    (∀ e ∈ h, Entry.HeardMaster e) ∧
    (∀ h₁ e h₂, h = h₁ ++ e :: h₂ →
      ∃ t, Sign 0 h₂ t ∧ (Entry.time e).toNat ≤ t.toNat + 5000) := by
  obtain ⟨h, s, r, e⟩ := run_of_summaries (plat := .host) (t₀ := 0) (rand := fun _ => 0)
    (ops := [.radioTick 5000 (some ⟨1, .heartbeat, 4, Vector.replicate 58 9⟩),
             .radioTick 10000 (some ⟨2, .heartbeat, 4, Vector.replicate 58 9⟩),
             .radioTick 15000 (some ⟨3, .heartbeat, 4, Vector.replicate 58 9⟩)])
    (l := [⟨15000, true, .slave, .slave, some .heartbeat, [.heartbeat], true⟩,
           ⟨10000, true, .slave, .slave, some .heartbeat, [.heartbeat], true⟩,
           ⟨5000, true, .slave, .slave, some .heartbeat, [.heartbeat], true⟩]) (by decide +kernel)
  refine ⟨h, s, r, clock_of_summaries e (by decide +kernel), ?_⟩
  obtain ⟨a, b, d, rfl⟩ : ∃ a b d, h = [a, b, d] := by
    rcases h with _ | ⟨a, _ | ⟨b, _ | ⟨d, _ | ⟨x, l⟩⟩⟩⟩ <;> simp at e ⊢
  · simp only [List.map_cons, List.map_nil, List.cons.injEq, and_true] at e
    obtain ⟨ea, eb, ed⟩ := e
    have ta : Entry.time a = 15000 := congrArg Summary.time ea
    have tb : Entry.time b = 10000 := congrArg Summary.time eb
    have td : Entry.time d = 5000 := congrArg Summary.time ed
    have ma : Entry.HeardMaster a := heardMaster_of_summary (by rw [ea])
    have mb : Entry.HeardMaster b := heardMaster_of_summary (by rw [eb])
    have md : Entry.HeardMaster d := heardMaster_of_summary (by rw [ed])
    refine ⟨rfl, by simp [ma, mb, md], ?_⟩
    intro h₁ e h₂ heq
    match h₁, heq with
    | [], heq =>
      cases heq
      exact ⟨10000, Or.inr ⟨b, List.mem_cons_self, tb, Or.inl mb⟩, by rw [ta]; decide +kernel⟩
    | [_], heq =>
      cases heq
      exact ⟨5000, Or.inr ⟨d, List.mem_cons_self, td, Or.inl md⟩, by rw [tb]; decide +kernel⟩
    | [_, _], heq => cases heq; exact ⟨0, Or.inl rfl, by rw [td]; decide +kernel⟩
    | _ :: _ :: _ :: l, heq =>
      have := congrArg List.length heq
      simp at this

/-- C20 (spacing).  Any two heartbeats a device sends on its own are more than 1000 ms
apart. -/
theorem heartbeats_apart {plat t₀ h s} (r : Run plat t₀ h s) (c : Clock t₀ h) (p : ProperUse h)
    {h₁ e h₂ e'} (heq : h = h₁ ++ e :: h₂) (he' : e' ∈ h₂) (ho : Entry.OwnHeartbeat e)
    (ho' : Entry.OwnHeartbeat e') :
    (Entry.time e').toNat + 1000 < (Entry.time e).toNat := by
  have := (r.hbInv c p).apart
  rw [heq, List.pairwise_append] at this
  exact (List.pairwise_cons.1 this.2.1).1 e' he' ho ho'

/-- C20 (cadence).  A master whose own heartbeats are all more than 1000 ms old sends exactly
one packet in the first radio tick in which it hears nothing new: a heartbeat carrying its
network time; it stays master. -/
theorem master_heartbeat_due {plat t₀ h s} (r : Run plat t₀ h s) (c : Clock t₀ h)
    (p : ProperUse h) (hs : s.getCurrentState = .master) (now : U32) (rx : Option Packet)
    (hq : Quiet s rx)
    (hold : ∀ e ∈ h, Entry.OwnHeartbeat e → (Entry.time e).toNat + 1000 < now.toNat) :
    ∃ s' q, s.radioTick plat now rx = .ok s' ∧ s'.getCurrentState = .master ∧
      Entry.transmitted ⟨s, .radioTick now rx, s'⟩ = [q] ∧ q.type = .heartbeat ∧
      q.readTimeFromHeartbeat plat = .ok (s.getNetworkMillis now) := by
  have inv := r.hbInv c p
  obtain ⟨e, he, ho, heq⟩ := inv.masterEq hs
  have hsl := hold e he ho
  have hx : s.timerExpired now = .heartbeat := by
    rw [Node.timerExpired_heartbeat r.wf]
    constructor
    · intro h0; rw [h0] at heq; simp at heq
    · rw [BitVec.lt_def]; omega
  have hd := hq.delivered r.wf
  have h1 := Node.radioTick_beat (plat := plat) r.wf hd hs hx
  exact ⟨_, Node.stamped plat (s.packet.writeHeartbeat (s.getNetworkMillis now)) s, h1, hs, by
    simp only [Entry.transmitted, Node.afterHeartbeat_sent, List.drop_left], rfl,
    (heartbeat_roundtrip plat s.packet (s.getNetworkMillis now)).1⟩

/-- A master that took over at 6000 ms, beats again at 7001 ms (not at 7000 ms). -/
example : ∃ h s, Run .arduino 0 h s ∧ Clock 0 h ∧ ProperUse h ∧
    h.map summary =
      [⟨7001, true, .master, .master, none, [.heartbeat], true⟩,
       ⟨7000, true, .master, .master, none, [], true⟩,
       ⟨6000, true, .slave, .master, none, [.heartbeat], true⟩] := by
  obtain ⟨h, s, r, e⟩ := run_of_summaries (plat := .arduino) (t₀ := 0) (rand := fun _ => 0)
    (ops := [.radioTick 6000 none, .radioTick 7000 none, .radioTick 7001 none])
    (l := [⟨7001, true, .master, .master, none, [.heartbeat], true⟩,
           ⟨7000, true, .master, .master, none, [], true⟩,
           ⟨6000, true, .slave, .master, none, [.heartbeat], true⟩]) (by decide +kernel)
  exact ⟨h, s, r, clock_of_summaries e (by decide +kernel), proper_of_summaries e (by decide +kernel), e⟩

end Firefly.Props
