import Verif.Lemmas.FakeAgree

/-! # The test network before the first change of effect -/

namespace Firefly
open Spec

/-- A heartbeat or a claim. -/
def Packet.Plain (p : Packet) : Prop := p.type = .heartbeat ∨ p.type = .claimMaster

namespace Node

/-- A device that has neither chosen nor been told an instruction. -/
structure Virgin (s : Node) (L : Nat) : Prop where
  able : s.Able
  seen : s.effectChangeSeenAt = 0
  index : s.effectIndex = 0
  effect : s.setEffectPacket.data[0] = 1
  armed : s.state = .master → s.timers.changeEffect.toNat = 60000 ∧
    L ≤ s.timers.broadcastEffect.toNat

theorem Virgin.case {now rx L} {s s' : Node} (h : s.Virgin L) (h6 : now.toNat < 60000)
    (h1 : now.toNat ≤ L) (h2 : L ≤ now.toNat + 2000) (hrx : ∀ p ∈ rx, Regular p ∧ p.Plain)
    (c : TickCase .host now rx s s') :
    s'.Virgin L ∧ ∃ l, s'.sent = s.sent ++ l ∧ ∀ q ∈ l, q.Plain := by
  have ab : s'.Able := h.able.cases (fun p hp => (hrx p hp).1) c
  have pl : ∀ {p}, s.delivered rx = some p → p.Plain := fun hp => (hrx _ (delivered_mem hp)).2
  have wf := h.able.wf
  have hw : now.toNat + 255000 < 2 ^ 32 := by omega
  have hdelay : takeoverDelay now s.effectChangeSeenAt = 60000 - now := by
    rw [h.seen]
    unfold takeoverDelay kChangeEffectInterval
    rw [show now - 0 = now from BitVec.sub_zero _, if_neg]
    rw [BitVec.lt_def, show (60000 : U32).toNat = 60000 from rfl]
    omega
  have hval : (60000 - now : U32).toNat = 60000 - now.toNat := by
    rw [BitVec.toNat_sub_of_le (by rw [BitVec.le_def, show (60000 : U32).toNat = 60000 from rfl]; omega)]
    rfl
  have hne : (60000 - now : U32) ≠ 0 := by
    intro e; rw [e] at hval; simp at hval; omega
  cases c with
  | slaveQuiet | masterQuiet => exact ⟨h, [], by simp, fun q hq => by cases hq⟩
  | takeOver _ _ _ =>
    refine ⟨⟨ab, h.seen, h.index, h.effect, fun _ => ⟨?_, ?_⟩⟩, [_], rfl, fun q hq => ?_⟩
    · show (if takeoverDelay now s.effectChangeSeenAt = 0 then 0
          else now + takeoverDelay now s.effectChangeSeenAt : U32).toNat = 60000
      rw [hdelay, if_neg hne, add_toNat hw (by rw [hval]; omega), hval]
      omega
    · show L ≤ (now + 2000 : U32).toNat
      rw [add_toNat hw (by decide)]
      exact h2
    · rw [List.mem_singleton.1 hq]; exact .inl rfl
  | beat =>
    refine ⟨⟨ab, h.seen, h.index, h.effect, h.armed⟩, [_], rfl, fun q hq => ?_⟩
    rw [List.mem_singleton.1 hq]; exact .inl rfl
  | change _ hs e =>
    have := BitVec.lt_def.1 ((expired_change_iff wf).1 e).2.2
    have := (h.armed hs).1
    omega
  | «repeat» _ hs e =>
    have := BitVec.lt_def.1 ((expired_broadcast_iff wf).1 e).2.2.2
    have := (h.armed hs).2
    omega
  | slaveHeartbeat p hd hs | slaveClaim p hd hs =>
    rw [armSlaveTimeout_eq] at ab ⊢
    refine ⟨⟨ab, h.seen, h.index, h.effect, fun e => ?_⟩, [p], rfl, fun q hq => ?_⟩
    · have e : s.state = .master := e
      rw [hs] at e; cases e
    · rw [List.mem_singleton.1 hq]; exact pl hd
  | slaveEffect p hd _ hp | masterEffect p hd _ hp =>
    rcases pl hd with e | e <;> rw [hp] at e <;> cases e
  | slaveControl p hd _ hp | masterControl p hd _ hp =>
    rcases pl hd with e | e <;> rw [hp] at e <;> cases e
  | other p n _ hd hp =>
    rcases pl hd with e | e <;> rw [hp] at e <;> cases e
  | electionWon p hd hs =>
    refine ⟨⟨ab, h.seen, h.index, h.effect, h.armed⟩, [p] ++ [_], List.append_assoc _ _ _,
      fun q hq => ?_⟩
    rcases List.mem_append.1 hq with hq | hq
    · rw [List.mem_singleton.1 hq]; exact pl hd
    · rw [List.mem_singleton.1 hq]; exact .inr rfl
  | electionLost p hd hs | masterClaim p hd hs =>
    unfold afterBeginSlave at ab ⊢
    rw [armSlaveTimeout_eq] at ab ⊢
    refine ⟨⟨ab, h.seen, h.index, h.effect, fun e => by cases e⟩, [p], rfl, fun q hq => ?_⟩
    rw [List.mem_singleton.1 hq]; exact pl hd

theorem Virgin.tick {now rx L} {s s' : Node} (h : s.Virgin L) (h6 : now.toNat < 60000)
    (h1 : now.toNat ≤ L) (h2 : L ≤ now.toNat + 2000) (hrx : ∀ p ∈ rx, Regular p ∧ p.Plain)
    (ht : s.tick .host now rx now rx = .ok s') :
    s'.Virgin L ∧ ∃ l, s'.sent = s.sent ++ l ∧ ∀ q ∈ l, q.Plain := by
  have one : ∀ {s s' : Node}, s.Virgin L → s.radioTick .host now rx = .ok s' →
      s'.Virgin L ∧ ∃ l, s'.sent = s.sent ++ l ∧ ∀ q ∈ l, q.Plain := by
    intro s s' h e
    rcases Node.radioTick_result (plat := .host) (now := now) (rx := rx) h.able.wf with
      ⟨s₁, h2, c⟩ | ⟨_, h2, _⟩ | ⟨_, h2, _⟩
    · rw [e] at h2
      have := Except.ok.inj h2
      rw [this]; exact h.case h6 h1 (by assumption) hrx c
    · rw [e] at h2; cases h2
    · rw [e] at h2; cases h2
  have fin : ∀ {s : Node}, s.Virgin L → ({ s with tickRun := true } : Node).Virgin L := fun k =>
    ⟨⟨⟨k.able.wf.idx, k.able.wf.next, k.able.wf.timerNone⟩, k.able.effects, k.able.palettes,
      k.able.instr, k.able.regular, k.able.index, k.able.sent⟩, k.seen, k.index, k.effect, k.armed⟩
  obtain ⟨s₁, e1, _⟩ := h.able.radioTick (now := now) fun p hp => (hrx p hp).1
  obtain ⟨k1, l₁, b1, p1⟩ := one h e1
  unfold Node.tick at ht
  simp only [e1, bind, Except.bind, pure, Except.pure] at ht
  cases hr : s₁.tickRun with
  | false =>
    simp only [hr, Bool.false_eq_true, if_false] at ht
    rw [← Except.ok.inj ht]; exact ⟨fin k1, l₁, b1, p1⟩
  | true =>
    obtain ⟨s₂, e2, _⟩ := k1.able.radioTick (now := now) fun p hp => (hrx p hp).1
    obtain ⟨k2, l₂, b2, p2⟩ := one k1 e2
    simp only [hr, if_true, e2] at ht
    rw [← Except.ok.inj ht]
    refine ⟨fin k2, l₁ ++ l₂, by rw [← List.append_assoc, ← b1]; exact b2, fun q hq => ?_⟩
    rcases List.mem_append.1 hq with hq | hq
    · exact p1 q hq
    · exact p2 q hq

end Node

namespace FakeNet

/-- A network in which nothing has been chosen yet. -/
structure Early {n} (net : FakeNet n) (L : Nat) : Prop where
  node : ∀ i, (net.node i).Virgin L
  radio : ∀ i, ∀ p ∈ (net.radio i).sent, p.Plain
  packet : ∀ p ∈ net.packet, p.Plain

theorem Early.tick {n} {net net' : FakeNet n} {L} (c : Early net L) (ab : net.Able)
    (r : Round net net' fun _ => net.air) (h6 : net.now.toNat < 60000)
    (h1 : net.now.toNat ≤ L) (h2 : L ≤ net.now.toNat + 2000) : Early net' L := by
  have hrx : ∀ p ∈ net.air, Regular p ∧ p.Plain := by
    intro p hp
    obtain ⟨q, hq, e⟩ := Option.map_eq_some_iff.1 hp
    rw [← e]
    have := c.packet q hq
    refine ⟨regular_tidy (ab.packet q hq), ?_⟩
    unfold Packet.Plain
    rw [(FakeRadio.clearTail_tidied q).type]
    exact this
  have key := fun i => (c.node i).tick h6 h1 h2 hrx (r.ticks i)
  have hW : ∀ i, ∀ p ∈ Waiting net net' i, p.Plain := by
    intro i p hp
    obtain ⟨_, l, e, hl⟩ := key i
    rw [waiting_eq e] at hp
    cases hl' : l.getLast? with
    | none => rw [hl'] at hp; exact c.radio i p hp
    | some q => rw [hl'] at hp; cases hp; exact hl _ (List.mem_of_getLast? hl')
  refine ⟨fun i => (key i).1, fun i p hp => ?_, fun p hp => ?_⟩
  · rcases taken_sent r i with e | e
    · rw [e] at hp; cases hp
    · rw [e] at hp; exact hW i p hp
  · rcases r.taken with ⟨_, e, _⟩ | ⟨k, q, _, e1, e, _⟩
    · rw [e] at hp; cases hp
    · rw [e] at hp; cases hp; exact hW k p e1

theorem booted_early {n} {net : FakeNet n} (b : net.Booted) (hn : n ≤ 99) :
    Early net 2000 := by
  have key : ∀ i, (net.node i).Virgin 2000 ∧ (net.radio i).sent = none := by
    intro i
    refine ⟨?_, ((b.idle hn).silent i).radio⟩
    obtain ⟨rand, junk, junk', seeds, h⟩ := b.device i
    obtain ⟨s, e, k⟩ := newNode_able (BitVec.ofNat 32 (i.val + 1)) rand junk junk' seeds
    simp only [boot, e, bind, Except.bind] at h
    obtain ⟨ht, _⟩ := step_tick h
    have v : s.Virgin 2000 := by
      have facts : s.effectChangeSeenAt = 0 ∧ s.effectIndex = 0 ∧
          s.setEffectPacket.data[0] = 1 ∧ s.state = .slave := by
        simp only [newNode] at e
        obtain ⟨r, _, hnode⟩ := Node.bind_ok e
        rw [← Except.ok.inj hnode]
        simp [Node.setNumEffects, Node.setNumPalettes, Node.init, Node.beginSlave,
          Node.armSlaveTimeout_eq, Packet.writeSetEffect]
      exact ⟨k, facts.1, facts.2.1, facts.2.2.1, fun e => by rw [facts.2.2.2] at e; cases e⟩
    have hi : (BitVec.ofNat 32 (i.val + 1)).toNat = i.val + 1 := by
      rw [BitVec.toNat_ofNat]; omega
    exact (v.tick (rx := none) (by omega) (by omega) (by omega) (fun p hp => by cases hp) ht).1
  refine ⟨fun i => (key i).1, fun i p hp => ?_, fun p hp => ?_⟩
  · rw [(key i).2] at hp; cases hp
  · rw [b.packet] at hp; cases hp

/-- Without a master. -/
theorem Early.any {n} {net : FakeNet n} {L} (c : Early net L) (hm : net.getNumMasters = 0) (L') :
    Early net L' :=
  ⟨fun i => ⟨(c.node i).able, (c.node i).seen, (c.node i).index, (c.node i).effect, fun e =>
    absurd e (getNumMasters_zero.1 hm i)⟩, c.radio, c.packet⟩

end FakeNet

open FakeNet
section
variable {n : Nat} {net : Nat → FakeNet n} {d : Nat → U32} {N : Nat}

/-- Until `n` `Tick`s after the first master appeared nothing has been chosen. -/
theorem Spec.Course.first (c : Course net d N) (hn : n ≤ 99) {k₀ : Nat} (hk : k₀ + n ≤ N)
    (hm : (net k₀).getNumMasters ≠ 0) (hm' : ∀ j < k₀, (net j).getNumMasters = 0) :
    (net (k₀ + n)).now.toNat ≤ 50000 + n ∧ Early (net (k₀ + n)) ((net k₀).now.toNat + 2000) := by
  have before : ∀ k < k₀, ∀ L, Early (net k) L := by
    intro k
    induction k with
    | zero => exact fun h L => (booted_early c.start hn).any (hm' 0 h) L
    | succ k ih =>
      intro hk1 L
      have h0 := hm' k (by omega)
      have he := c.early k (by omega) h0
      have r := c.round (k := k) (by omega) (c.loss (by omega))
      have hnow : ((net k).advanceMillis (d k)).now.toNat = (net k).now.toNat + (d k).toNat := by
        show ((net k).now + d k).toNat = _
        rw [BitVec.toNat_add]; omega
      have i := ih (by omega) (((net k).advanceMillis (d k)).now.toNat)
      have a := c.able (k := k) (by omega)
      have t : Early (net (k + 1)) _ := Early.tick (net := (net k).advanceMillis (d k))
        ⟨i.1, i.2, i.3⟩ ⟨a.1, a.2, a.3⟩ r (by omega) (Nat.le_refl _) (by omega)
      exact t.any (hm' (k + 1) hk1) L
  obtain ⟨A₀, st, h5, hk0, h50⟩ := c.appears hn (k := k₀) (by omega) hm hm'
  have hpos : 0 < n := A₀.pos
  have at0 : Early (net k₀) ((net k₀).now.toNat + 2000) := by
    obtain ⟨k, rfl⟩ : ∃ k, k₀ = k + 1 := ⟨k₀ - 1, by omega⟩
    have i := before k (by omega) ((net (k + 1)).now.toNat + 2000)
    have a := c.able (k := k) (by omega)
    have r := c.round (k := k) (by omega) (c.loss (by omega))
    rw [r.now] at i h50 ⊢
    exact Early.tick (net := (net k).advanceMillis (d k)) ⟨i.1, i.2, i.3⟩ ⟨a.1, a.2, a.3⟩ r
      (by omega) (by omega) (by omega)
  have after : ∀ j, j ≤ n → (net (k₀ + j)).now.toNat = (net k₀).now.toNat + j ∧
      Early (net (k₀ + j)) ((net k₀).now.toNat + 2000) := by
    intro j
    induction j with
    | zero => exact fun _ => ⟨rfl, at0⟩
    | succ j ih =>
      intro hj
      obtain ⟨e, i⟩ := ih (by omega)
      have hm2 : (net (k₀ + j)).getNumMasters ≠ 0 := by
        cases j with
        | zero => exact hm
        | succ j =>
          obtain ⟨_, h⟩ := c.elects hn hm hm' (j := j) (by omega)
          rw [show k₀ + 1 + j = k₀ + (j + 1) by omega] at h
          rcases h with ⟨_, A, x, g, _⟩ | ⟨A, g⟩
          · exact fun e => FakeNet.getNumMasters_zero.1 e A g.master
          · rw [FakeNet.getNumMasters_one g.only]; decide
      have hs := c.slow (k := k₀ + j) (by omega) hm2
      have a := c.able (k := k₀ + j) (by omega)
      have r := c.round (k := k₀ + j) (by omega) (c.loss (by omega))
      refine ⟨by rw [← Nat.add_assoc, r.now, hs, e]; omega, ?_⟩
      exact Early.tick (net := (net (k₀ + j)).advanceMillis (d (k₀ + j))) ⟨i.1, i.2, i.3⟩
        ⟨a.1, a.2, a.3⟩ r (by omega) (by omega) (by omega)
  obtain ⟨e, h⟩ := after n (Nat.le_refl _)
  exact ⟨by omega, h⟩

end

end Firefly
