import Verif.Lemmas.FakeStable
import Verif.Lemmas.FakeSafe
import Verif.Spec.FakeAgree

/-! # What the devices of the test network are told -/

namespace Firefly
open Spec

namespace Spec.SameOrder

theorem refl (p : Packet) : SameOrder p p := ⟨rfl, rfl, fun _ _ _ => rfl⟩

theorem symm {p q : Packet} (h : SameOrder p q) : SameOrder q p :=
  ⟨h.type.symm, h.len.symm, fun i hi hl => (h.used i hi (by rw [h.len]; exact hl)).symm⟩

theorem trans {p q r : Packet} (h : SameOrder p q) (g : SameOrder q r) : SameOrder p r :=
  ⟨h.type.trans g.type, h.len.trans g.len, fun i hi hl =>
    (h.used i hi hl).trans (g.used i hi (by rw [← h.len]; exact hl))⟩

theorem tidy (p : Packet) : SameOrder (FakeRadio.clearTail p) p := by
  have t := FakeRadio.clearTail_tidied p
  exact ⟨t.type, t.len, fun i hi hl => t.used i hi (by rw [← t.len]; exact hl)⟩

end Spec.SameOrder

namespace Node

/-- What a master that hears nothing new says in a radio tick, and what it follows afterwards. -/
theorem TickCase.tells {now rx} {s s' : Node} (hs : s.state = .master)
    (hd : s.delivered rx = none) (c : TickCase .host now rx s s') :
    ∃ l, s'.sent = s.sent ++ l ∧ s'.state = .master ∧ (l = [] → s' = s) ∧
      (∀ q ∈ l, q.type = .heartbeat ∨ SameOrder q s'.setEffectPacket) ∧
      (SameOrder s'.setEffectPacket s.setEffectPacket ∧ s'.effectIndex = s.effectIndex ∧
          s'.timers.changeEffect = s.timers.changeEffect ∨
        s'.setEffectPacket.data[0] = s'.effectIndex ∧ s.timerExpired now = .changeEffect ∧
          s'.timers.changeEffect = now + 60000 ∧ s'.setEffectPacket.len = 3) ∧
      (s.timerExpired now = .heartbeat ∧ s'.timers.broadcastEffect = s.timers.broadcastEffect ∧
          s'.timers.changeEffect = s.timers.changeEffect ∨
        (∀ q ∈ l, SameOrder q s'.setEffectPacket) ∧
          (s'.timers.broadcastEffect = s.timers.broadcastEffect ∧
              s'.timers.changeEffect = s.timers.changeEffect ∨
            l ≠ [] ∧ s'.timers.heartbeat = s.timers.heartbeat ∧
              s.timerExpired now ≠ .heartbeat)) := by
  cases c with
  | slaveQuiet _ e | takeOver _ e | slaveHeartbeat _ _ e | slaveClaim _ _ e =>
    rw [hs] at e; cases e
  | slaveEffect _ _ e | slaveControl _ _ e =>
    rw [hs] at e; cases e
  | electionWon _ e | electionLost _ e | masterClaim _ e | masterEffect _ e | masterControl _ e =>
    rw [hd] at e; cases e
  | other _ _ _ e => rw [hd] at e; cases e
  | masterQuiet _ _ e =>
    exact ⟨[], by simp, hs, fun _ => rfl, fun q hq => (by cases hq), .inl ⟨.refl _, rfl, rfl⟩,
      .inr ⟨fun q hq => (by cases hq), .inl ⟨rfl, rfl⟩⟩⟩
  | beat _ _ e =>
    refine ⟨[_], rfl, hs, fun h => (by cases h), fun q hq => ?_, .inl ⟨.refl _, rfl, rfl⟩,
      .inl ⟨e, rfl, rfl⟩⟩
    rw [List.mem_singleton.1 hq]
    exact .inl rfl
  | change _ _ e _ _ _ _ h1 h2 =>
    refine ⟨[_], rfl, hs, fun h => (by cases h), fun q hq => ?_, .inr ⟨?_, e, rfl, rfl⟩,
      .inr ⟨fun q hq => ?_, .inr ⟨by simp, ?_, by rw [e]; simp⟩⟩⟩
    · rw [List.mem_singleton.1 hq]
      exact .inr ⟨rfl, rfl, fun _ _ _ => rfl⟩
    · simp [afterChange, Packet.writeSetEffect]
    · rw [List.mem_singleton.1 hq]
      exact ⟨rfl, rfl, fun _ _ _ => rfl⟩
    · simp [afterChange]
  | «repeat» _ _ e =>
    refine ⟨[_], rfl, hs, fun h => (by cases h), fun q hq => ?_,
      .inl ⟨⟨rfl, rfl, fun _ _ _ => rfl⟩, rfl, rfl⟩,
      .inr ⟨fun q hq => ?_, .inr ⟨by simp, rfl, by rw [e]; simp⟩⟩⟩
    all_goals rw [List.mem_singleton.1 hq]
    · exact .inr (.refl _)
    · exact .refl _

/-- What a master that hears nothing but its own recent packets says, and what it follows
afterwards. -/
theorem Sound.master_tells {now rx} {s s' : Node} (h : s.Sound) (hs : s.state = .master)
    {l m : List Packet} (hm : s.sent = l ++ m) (hlen : m.length ≤ 4)
    (hk : ∀ p ∈ rx, p.id ∈ m.map (·.id)) (hw : now.toNat + 255000 < 2 ^ 32)
    (ht : s.tick .host now rx now rx = .ok s') :
    ∃ l', s'.sent = s.sent ++ l' ∧
      (∀ q ∈ l'.getLast?, q.type = .heartbeat ∨ SameOrder q s'.setEffectPacket) ∧
      (SameOrder s'.setEffectPacket s.setEffectPacket ∧ s'.effectIndex = s.effectIndex ∧
          s'.timers.changeEffect = s.timers.changeEffect ∨
        s'.setEffectPacket.data[0] = s'.effectIndex ∧
          s'.timers.changeEffect ≠ s.timers.changeEffect) ∧
      (s'.timers.broadcastEffect ≠ s.timers.broadcastEffect ∨
          s'.timers.changeEffect ≠ s.timers.changeEffect →
        ∃ q, l'.getLast? = some q ∧ SameOrder q s'.setEffectPacket) := by
  obtain ⟨s₁, c1, k1, c2, _⟩ := h.tick ht
  have hd := h.known (rx := rx) fun p hp => memory_recent hm (by omega) (hk p hp)
  obtain ⟨l₁, f1, e1, _⟩ := c1.fire h.wf hs hd
  have hl1 := f1.length
  have hd1 := k1.known (rx := rx) fun p hp => by
    refine memory_recent (l := l) (m := m ++ l₁) (by rw [e1, hm, List.append_assoc])
      (by simp; omega) ?_
    rw [List.map_append]
    exact List.mem_append_left _ (hk p hp)
  obtain ⟨a, a1, a2, a3, a4, a5, a6⟩ := c1.tells hs hd
  obtain ⟨b, b1, b2, b3, b4, b5, b6⟩ := c2.tells a2 hd1
  have hadd : (now + 60000).toNat = now.toNat + 60000 := add_toNat hw (by decide)
  have late : ∀ {s : Node}, s.WF → s.timerExpired now = .changeEffect →
      s.timers.changeEffect.toNat < now.toNat := fun wf e =>
    BitVec.lt_def.1 ((expired_change_iff wf).1 e).2.2
  refine ⟨a ++ b, by rw [b1, a1, List.append_assoc], ?_, ?_, ?_⟩
  · intro q hq
    cases hb : b.getLast? with
    | none =>
      have : b = [] := by simpa using hb
      subst this
      rw [List.append_nil] at hq
      rw [b3 rfl]
      exact a4 q (List.mem_of_getLast? hq)
    | some q' =>
      rw [List.getLast?_append, hb] at hq
      cases hq
      exact b4 _ (List.mem_of_getLast? hb)
  · rcases a5 with ⟨g1, g2, g3⟩ | ⟨g1, g2, g3, g4⟩ <;>
      rcases b5 with ⟨k1', k2, k3⟩ | ⟨k1', k2, k3, _⟩
    · exact .inl ⟨k1'.trans g1, k2.trans g2, k3.trans g3⟩
    · refine .inr ⟨k1', fun e => ?_⟩
      have := late k1.wf k2
      rw [g3, ← e, k3, hadd] at this; omega
    · refine .inr ⟨?_, fun e => ?_⟩
      · rw [k2, ← g1, k1'.used 0 (by decide) (by rw [k1'.len, g4]; decide)]
      · have := late h.wf g2
        rw [← e, k3, g3, hadd] at this; omega
    · have := late k1.wf k2
      rw [g3, hadd] at this; omega
  · intro hne
    cases hb : b.getLast? with
    | none =>
      have hb0 : b = [] := by simpa using hb
      have hs1 := b3 hb0
      rw [hs1] at hne ⊢
      subst hb0
      rw [List.append_nil]
      rcases a6 with ⟨_, e⟩ | ⟨g, e | ⟨e, _⟩⟩
      · exact hne.elim (absurd e.1) (absurd e.2)
      · exact hne.elim (absurd e.1) (absurd e.2)
      · exact ⟨_, List.getLast?_eq_some_getLast e, g _ (List.getLast_mem e)⟩
    | some q =>
      refine ⟨q, by rw [List.getLast?_append, hb]; rfl, ?_⟩
      rcases b6 with ⟨x1, e⟩ | ⟨g, _⟩
      · rcases a6 with ⟨_, e'⟩ | ⟨_, e' | ⟨_, e', x2⟩⟩
        · exact hne.elim (absurd (e.1.trans e'.1)) (absurd (e.2.trans e'.2))
        · exact hne.elim (absurd (e.1.trans e'.1)) (absurd (e.2.trans e'.2))
        · exfalso
          rw [timerExpired_heartbeat k1.wf, e'] at x1
          exact x2 ((timerExpired_heartbeat h.wf).2 x1)
      · exact g q (List.mem_of_getLast? hb)

/-- What a slave follows after it has heard something new. -/
theorem Sound.slave_told {now} {p : Packet} {s s' : Node} (h : s.Sound)
    (hnow : now.toNat + 255000 < 2 ^ 32) (hs : s.state = .slave) (hk : p.id ∉ memory s)
    (hT : now ≤ s.timers.heartbeat) (hreg : Regular p)
    (ht : s.tick .host now (some p) now (some p) = .ok s') :
    (p.type = .setEffect ∧ s'.setEffectPacket = p ∧ s'.effectIndex = p.data[0]) ∨
    (p.type ≠ .setEffect ∧ s'.setEffectPacket = s.setEffectPacket ∧
      s'.effectIndex = s.effectIndex) := by
  have hh := h.slave_hears hnow hs hk (.inl hT) ht
  obtain ⟨s₁, c1, k1, c2, _⟩ := h.tick ht
  have hd := h.unknown hk
  have key : s₁.state = .slave ∧ s₁.sent = s.sent ++ [p] ∧ now ≤ s₁.timers.heartbeat ∧
    ((p.type = .setEffect ∧ s₁.setEffectPacket = p ∧ s₁.effectIndex = p.data[0]) ∨
    (p.type ≠ .setEffect ∧ s₁.setEffectPacket = s.setEffectPacket ∧
      s₁.effectIndex = s.effectIndex)) := by
    have arm : ∀ n, now ≤ now + BitVec.ofNat 32 (5000 + n % 2000) := by
      intro n
      rw [BitVec.le_def, timeout_toNat hnow]
      omega
    cases c1 with
    | slaveQuiet e | masterQuiet e | takeOver e | beat e | change e | «repeat» e =>
      rw [hd] at e; cases e
    | electionWon _ _ e | electionLost _ _ e | masterClaim _ _ e =>
      rw [hs] at e; cases e
    | masterEffect _ _ e | masterControl _ _ e =>
      rw [hs] at e; cases e
    | slaveHeartbeat q e _ hp | slaveClaim q e _ hp =>
      rw [hd] at e; cases e
      rw [armSlaveTimeout_eq]
      exact ⟨hs, rfl, arm _, .inr ⟨by rw [hp]; simp, rfl, rfl⟩⟩
    | slaveEffect q e _ hp =>
      rw [hd] at e; cases e
      exact ⟨hs, rfl, hT, .inl ⟨hp, rfl, rfl⟩⟩
    | slaveControl q e _ hp =>
      rw [hd] at e; cases e
      rcases hreg with ⟨g, _⟩ | g | ⟨g, _⟩ <;> rw [hp] at g <;> cases g
    | other q _ _ e hp =>
      rw [hd] at e; cases e
      exact ⟨hs, rfl, hT, .inr ⟨by rw [hp]; simp, rfl, rfl⟩⟩
  obtain ⟨e1, e2, e3, e4⟩ := key
  have hk1 : Known s₁ (some p) := by
    intro q hq
    cases hq
    exact memory_recent e2 (by simp) (by simp)
  have : s' = s₁ := by
    have hd := k1.known hk1
    have he : s₁.timerExpired now ≠ .heartbeat := by
      rw [Ne, timerExpired_heartbeat k1.wf]
      rintro ⟨_, e⟩
      rw [BitVec.lt_def] at e; rw [BitVec.le_def] at e3; omega
    clear e4
    cases c2 <;> simp_all
  subst this
  exact e4

end Node
end Firefly
