import Verif.Lemmas.Memory
import Verif.Props.Memory
import Verif.Spec.Fakes

/-! # Lemmas about the doubles for host programs -/

namespace Firefly
open Spec

namespace FakeRadio

theorem foldl_clear (n : Nat) : ∀ (a : Nat) (d : Vector U8 58) (i : Nat) (hi : i < 58),
    ((List.range' a n).foldl (fun d i => d.setIfInBounds i 0) d)[i] =
      if a ≤ i ∧ i < a + n then 0 else d[i] := by
  induction n with
  | zero =>
    intro a d i hi
    rw [if_neg (by omega)]; rfl
  | succ n ih =>
    intro a d i hi
    rw [List.range'_succ, List.foldl_cons, ih]
    by_cases h1 : a + 1 ≤ i ∧ i < a + 1 + n
    · rw [if_pos h1, if_pos (by omega)]
    · rw [if_neg h1, Vector.getElem_setIfInBounds hi]
      by_cases h2 : a = i
      · rw [if_pos h2, if_pos (by omega)]
      · rw [if_neg h2, if_neg (by omega)]

theorem clearTail_tidied (p : Packet) : Tidied p (clearTail p) where
  id := rfl
  type := rfl
  len := rfl
  used i hi h := by
    show ((List.range' _ _).foldl _ _)[i] = _
    rw [foldl_clear, if_neg (by omega)]
  unused i hi h := by
    show ((List.range' _ _).foldl _ _)[i] = _
    rw [foldl_clear, if_pos (by unfold packetDataLength; omega)]

theorem received_kept {calls : List Call} (h : NothingStaged calls) (s : FakeRadio) :
    (calls.foldl Call.step s).received = s.received := by
  induction calls generalizing s with
  | nil => rfl
  | cons c l ih =>
    rw [List.foldl_cons, ih (fun c' hc => h c' (.tail _ hc))]
    have := h c (.head _)
    cases c with
    | stage p => exact absurd rfl (this.1 p)
    | rewrite p => exact absurd rfl (this.2 p)
    | read | send | collect => rfl

theorem sent_kept {calls : List Call} (h : NothingSent calls) (h' : .collect ∉ calls)
    (s : FakeRadio) : (calls.foldl Call.step s).sent = s.sent := by
  induction calls generalizing s with
  | nil => rfl
  | cons c l ih =>
    rw [List.foldl_cons, ih (fun c' hc => h c' (.tail _ hc)) (fun hc => h' (.tail _ hc))]
    cases c with
    | send p => exact absurd rfl (h _ (.head _) p)
    | collect => exact absurd (.head _) h'
    | read | stage | rewrite => rfl

theorem none_sent {calls : List Call} (h : NothingSent calls) {s : FakeRadio} (hs : s.sent = none) :
    (calls.foldl Call.step s).sent = none := by
  induction calls generalizing s with
  | nil => exact hs
  | cons c l ih =>
    rw [List.foldl_cons]
    apply ih (fun c' hc => h c' (.tail _ hc))
    cases c with
    | send p => exact absurd rfl (h _ (.head _) p)
    | collect => rfl
    | read | stage | rewrite => exact hs

theorem none_received {calls : List Call} (h : ∀ p, .stage (some p) ∉ calls) {s : FakeRadio}
    (hs : s.received = none) : (calls.foldl Call.step s).received = none := by
  induction calls generalizing s with
  | nil => exact hs
  | cons c l ih =>
    rw [List.foldl_cons]
    apply ih (fun p hc => h p (.tail _ hc))
    cases c with
    | stage p =>
      cases p with
      | none => rfl
      | some p => exact absurd (.head _) (h p)
    | rewrite p => simp [Call.step, rewrite, hs]
    | read | send | collect => exact hs

theorem sendAll (l : List Packet) (s : FakeRadio) :
    l.foldl sendPacket s = { s with sent := l.getLast?.or s.sent } := by
  induction l generalizing s with
  | nil => rfl
  | cons p l ih =>
    rw [List.foldl_cons, ih]
    cases l with
    | nil => rfl
    | cons q l => simp [sendPacket, List.getLast?_cons]

end FakeRadio

theorem Node.TickCase.relays {plat now rx p} {s s' : Node} (h : Node.TickCase plat now rx s s')
    (hd : s.delivered rx = some p) : ∃ l, s'.sent = s.sent ++ p :: l := by
  cases h with
  | slaveQuiet h | masterQuiet h | takeOver h | beat h | change h | «repeat» h =>
    rw [hd] at h; cases h
  | slaveHeartbeat _ h | slaveClaim _ h =>
    rw [hd] at h; cases h
    rw [Node.armSlaveTimeout_eq]; exact ⟨[], rfl⟩
  | slaveEffect _ h | slaveControl _ h | other _ _ _ h | masterEffect _ h | masterControl _ h =>
    rw [hd] at h; cases h
    exact ⟨[], rfl⟩
  | electionWon q h =>
    rw [hd] at h; cases h
    exact ⟨[_], by simp [Node.afterSend, Node.afterAccept]; rfl⟩
  | electionLost _ h | masterClaim _ h =>
    rw [hd] at h; cases h
    unfold Node.afterBeginSlave
    rw [Node.armSlaveTimeout_eq]; exact ⟨[], rfl⟩

namespace FakeDevice

/-- Between two states of a test, without collecting: the radio holds the last packet sent. -/
structure Between (d d' : FakeDevice) (l : List Packet) : Prop where
  sent : d'.node.sent = d.node.sent ++ l
  radio : d'.radio.sent = l.getLast?.or d.radio.sent

theorem handOver_between {d : FakeDevice} {node : Node} {l : List Packet}
    (h : node.sent = d.node.sent ++ l) : Between d ⟨handOver d.radio d.node node, node⟩ l := by
  refine ⟨h, ?_⟩
  show (handOver d.radio d.node node).sent = _
  unfold handOver
  rw [h, List.drop_left, FakeRadio.sendAll]

theorem tick_received {d d' : FakeDevice} {now₁ now₂} (h : step d (.tick now₁ now₂) = .ok d') :
    d'.radio.received = d.radio.received := by
  simp only [step, bind, Except.bind, pure, Except.pure] at h
  split at h
  · cases h
  · cases h; simp [handOver, FakeRadio.sendAll]

/-- What one call does to the state machine. -/
theorem step_exec {s₀ h c} {d d' : FakeDevice} (x : Exec .host s₀ h d.node)
    (wf : d.node.WF) (hs : step d c = .ok d') :
    ∃ h', Exec .host s₀ (h' ++ h) d'.node ∧ ∃ l, d'.node.sent = d.node.sent ++ l ∧
      (c ≠ .collect → d'.radio.sent = l.getLast?.or d.radio.sent) := by
  cases c with
  | stage p | collect =>
    cases hs
    exact ⟨[], x, [], by simp, by simp [FakeRadio.setReceivedPacket]⟩
  | setNumPalettes n =>
    cases hs
    exact ⟨[_], .cons (.setNumPalettes 0 n) x rfl, [], by simp [Node.setNumPalettes], fun _ => rfl⟩
  | setNumEffects n =>
    cases hs
    exact ⟨[_], .cons (.setNumEffects 0 n) x rfl, [], by simp [Node.setNumEffects], fun _ => rfl⟩
  | setEffect now p =>
    simp only [step, bind, Except.bind, pure, Except.pure] at hs
    split at hs
    · cases hs
    · rename_i node he
      cases hs
      obtain ⟨l, hl, _⟩ := Node.step_grows (plat := .host) (op := .setEffect now p) wf he
      have b := handOver_between (d := d) hl
      exact ⟨[_], .cons (.setEffect now p) x he, l, hl, fun _ => b.radio⟩
  | tick now₁ now₂ =>
    simp only [step, bind, Except.bind, pure, Except.pure] at hs
    split at hs
    · cases hs
    · rename_i node he
      cases hs
      obtain ⟨s₁, h1, ⟨_, h2⟩ | ⟨_, s₂, h2, h3⟩⟩ := Node.tick_eq_ops.1 he
      · obtain ⟨l, hl, _⟩ := Node.step_grows wf h1
        have hl2 : node.sent = d.node.sent ++ l := by cases h2; exact hl
        have b := handOver_between (d := d) hl2
        exact ⟨[_, _], .cons _ (.cons _ x h1) h2, l, hl2, fun _ => b.radio⟩
      · obtain ⟨l, hl, _⟩ := Node.step_grows wf h1
        obtain ⟨l', hl', _⟩ := Node.step_grows (Node.step_wf wf h1) h2
        have hl2 : node.sent = d.node.sent ++ (l ++ l') := by
          cases h3; show s₂.sent = _; rw [hl', hl, List.append_assoc]
        have b := handOver_between (d := d) hl2
        exact ⟨[_, _, _], .cons _ (.cons _ (.cons _ x h1) h2) h3, l ++ l', hl2, fun _ => b.radio⟩

end FakeDevice

end Firefly
