import Verif.Lemmas.FakeTick
import Verif.Props.Registry

/-! # The network of the integration tests does not abort -/

namespace Firefly
open Spec

/-- What keeps a device of the test network from aborting. -/
structure Node.Able (s : Node) : Prop where
  wf : s.WF
  effects : s.numEffects = 27
  palettes : s.numPalettes = 22
  instr : s.setEffectPacket.type = .setEffect
  regular : Regular s.setEffectPacket
  index : s.effectIndex.toNat < 27
  sent : ∀ p ∈ s.sent, Regular p

namespace Node

theorem range_lt {m : U16} {r r' : Rand} {x : U16} (h : randomRange .host 0 m r = .ok (x, r')) :
    x.toNat < m.toNat := by
  unfold randomRange at h
  simp only at h
  split at h
  · cases h
  · rename_i hm
    cases h
    have : 0 < m.toNat := Nat.pos_of_ne_zero fun e => hm (BitVec.eq_of_toNat_eq e)
    have h1 := Nat.mod_lt r.draw.1 this
    have h2 := m.isLt
    rw [BitVec.toNat_ofNat, show (0 : U16).toNat = 0 from rfl, Nat.zero_add,
      Nat.mod_eq_of_lt (by omega)]
    exact h1

theorem regular_congr {p q : Packet} (h1 : p.type = q.type) (h2 : p.len = q.len)
    (h3 : p.data = q.data) (h : Regular q) : Regular p := by
  unfold Regular at *
  rw [h1, h2, h3]; exact h

theorem delivered_mem {s : Node} {rx : Option Packet} {p : Packet} (h : s.delivered rx = some p) :
    rx = some p := by
  cases rx with
  | none => cases h
  | some q =>
    simp only [Node.delivered] at h
    split at h
    · cases h
    · exact h

theorem range_byte {m r x r'} {k : Nat} (hk : k ≤ 255) (hm : m = BitVec.ofNat 8 k)
    (h : randomRange .host 0 (m.setWidth 16) r = .ok (x, r')) : (x.setWidth 8).toNat < k := by
  have h1 := range_lt h
  subst hm
  rw [BitVec.toNat_setWidth, BitVec.toNat_ofNat] at h1
  rw [BitVec.toNat_setWidth]
  omega

theorem regular_effect {p : Packet} (h : Regular p) (ht : p.type = .setEffect) :
    p.len = 3 ∧ p.data[0].toNat < 27 ∧ p.data[2].toNat < 22 := by
  rcases h with ⟨k, _⟩ | k | ⟨_, k⟩
  · rw [ht] at k; cases k
  · rw [ht] at k; cases k
  · exact k

theorem mem_snoc {l : List Packet} {q : Packet} (h : ∀ p ∈ l, Regular p) (hq : Regular q) :
    ∀ p ∈ l ++ [q], Regular p := by
  intro p hp
  rcases List.mem_append.1 hp with hp | hp
  · exact h p hp
  · rw [List.mem_singleton.1 hp]; exact hq

theorem Able.cases {now rx} {s s' : Node} (h : s.Able) (hrx : ∀ p, rx = some p → Regular p)
    (c : TickCase .host now rx s s') : s'.Able := by
  have wf := c.wf h.wf
  have hrx' : ∀ p, s.delivered rx = some p → Regular p := fun p hp => hrx p (delivered_mem hp)
  obtain ⟨_, he, hpal, hi, hr, hx, hs⟩ := h
  cases c with
  | slaveQuiet => exact ⟨wf, he, hpal, hi, hr, hx, hs⟩
  | masterQuiet => exact ⟨wf, he, hpal, hi, hr, hx, hs⟩
  | takeOver => exact ⟨wf, he, hpal, hi, hr, hx, mem_snoc hs (.inl ⟨rfl, rfl⟩)⟩
  | beat => exact ⟨wf, he, hpal, hi, hr, hx, mem_snoc hs (.inl ⟨rfl, rfl⟩)⟩
  | change _ _ _ e pal r r' h1 h2 =>
    have g1 := range_byte (k := 27) (by decide) he h1
    have g2 := range_byte (k := 22) (by decide) hpal h2
    have hreg : ∀ q : Packet, q.type = .setEffect → q.len = 3 →
        q.data = (s.packet.writeSetEffect (e.setWidth 8) 0 (pal.setWidth 8)).data → Regular q := by
      intro q a b c
      refine .inr (.inr ⟨a, b, ?_, ?_⟩) <;> rw [c] <;>
        simpa [Packet.writeSetEffect, Vector.getElem_set] using by assumption
    exact ⟨wf, he, hpal, rfl, hreg _ rfl rfl rfl, g1, mem_snoc hs (hreg _ rfl rfl rfl)⟩
  | «repeat» =>
    exact ⟨wf, he, hpal, hi, regular_congr (q := s.setEffectPacket) rfl rfl rfl hr, hx,
      mem_snoc hs (regular_congr (q := s.setEffectPacket) rfl rfl rfl hr)⟩
  | slaveHeartbeat p hd => exact ⟨wf, he, hpal, hi, hr, hx, mem_snoc hs (hrx' p hd)⟩
  | slaveClaim p hd => exact ⟨wf, he, hpal, hi, hr, hx, mem_snoc hs (hrx' p hd)⟩
  | slaveEffect p hd _ hp =>
    exact ⟨wf, he, hpal, hp, hrx' p hd, (regular_effect (hrx' p hd) hp).2.1, mem_snoc hs (hrx' p hd)⟩
  | slaveControl p hd _ hp =>
    rcases hrx' p hd with ⟨k, _⟩ | k | ⟨k, _⟩ <;> rw [hp] at k <;> cases k
  | other p n h hd => exact ⟨wf, he, hpal, hi, hr, hx, mem_snoc hs (hrx' p hd)⟩
  | electionWon p hd =>
    exact ⟨wf, he, hpal, hi, hr, hx, mem_snoc (mem_snoc hs (hrx' p hd)) (.inr (.inl rfl))⟩
  | electionLost p hd => exact ⟨wf, he, hpal, hi, hr, hx, mem_snoc hs (hrx' p hd)⟩
  | masterClaim p hd => exact ⟨wf, he, hpal, hi, hr, hx, mem_snoc hs (hrx' p hd)⟩
  | masterEffect p hd _ hp =>
    exact ⟨wf, he, hpal, hp, hrx' p hd, (regular_effect (hrx' p hd) hp).2.1, mem_snoc hs (hrx' p hd)⟩
  | masterControl p hd _ hp =>
    rcases hrx' p hd with ⟨k, _⟩ | k | ⟨k, _⟩ <;> rw [hp] at k <;> cases k

theorem Able.radioTick {now rx} {s : Node} (h : s.Able) (hrx : ∀ p, rx = some p → Regular p) :
    ∃ s', s.radioTick .host now rx = .ok s' ∧ s'.Able := by
  rcases Node.radioTick_result (plat := .host) (now := now) (rx := rx) h.wf with
    ⟨s', h2, c⟩ | ⟨_, _, p, hp, ha⟩ | ⟨_, _, _, _, _, h0⟩
  · exact ⟨s', h2, h.cases hrx c⟩
  · exfalso
    have hr := hrx p (delivered_mem hp)
    rcases ha with ⟨h1, _, h2⟩ | ⟨h1, h2⟩ | ⟨h1, _⟩ | ⟨h1, _, _, h2⟩
    · rcases hr with ⟨_, k⟩ | k | ⟨k, _⟩
      · exact h2 k
      · rw [h1] at k; cases k
      · rw [h1] at k; cases k
    · rcases hr with ⟨k, _⟩ | k | ⟨_, k, _⟩
      · rw [h1] at k; cases k
      · rw [h1] at k; cases k
      · exact h2 k
    · rcases hr with ⟨k, _⟩ | k | ⟨k, _⟩ <;> rw [h1] at k <;> cases k
    · apply h2
      refine ⟨h.instr, ?_⟩
      rcases h.regular with ⟨k, _⟩ | k | ⟨_, k, _⟩
      · rw [h.instr] at k; cases k
      · rw [h.instr] at k; cases k
      · exact k
  · exfalso
    rw [h.effects, h.palettes] at h0
    rcases h0 with h0 | h0 <;> exact absurd h0 (by decide)

theorem Able.tick {now rx} {s : Node} (h : s.Able) (hrx : ∀ p, rx = some p → Regular p) :
    ∃ s', s.tick .host now rx now rx = .ok s' ∧ s'.Able := by
  obtain ⟨s₁, h1, k1⟩ := h.radioTick (now := now) hrx
  have fin : ∀ {s : Node}, s.Able → ({ s with tickRun := true } : Node).Able := fun k =>
    ⟨⟨k.wf.idx, k.wf.next, k.wf.timerNone⟩, k.effects, k.palettes, k.instr, k.regular, k.index, k.sent⟩
  unfold Node.tick
  simp only [h1, bind, Except.bind, pure, Except.pure]
  cases s₁.tickRun with
  | false => exact ⟨_, rfl, fin k1⟩
  | true =>
    obtain ⟨s₂, h2, k2⟩ := k1.radioTick (now := now) hrx
    simp only [if_true, h2]
    exact ⟨_, rfl, fin k2⟩

end Node

theorem regular_tidy {p : Packet} (h : Regular p) : Regular (FakeRadio.clearTail p) := by
  have t := FakeRadio.clearTail_tidied p
  rcases h with ⟨a, b⟩ | a | ⟨a, b, c, d⟩
  · exact .inl ⟨t.type.trans a, t.len.trans b⟩
  · exact .inr (.inl (t.type.trans a))
  · have hb : p.len.toNat = 3 := by rw [b]; rfl
    refine .inr (.inr ⟨t.type.trans a, t.len.trans b, ?_, ?_⟩)
    · rw [t.used 0 (by decide) (by omega)]; exact c
    · rw [t.used 2 (by decide) (by omega)]; exact d

namespace FakeNet

/-- What keeps a test network from aborting. -/
structure Able {n} (net : FakeNet n) : Prop where
  node : ∀ i, (net.node i).Able
  radio : ∀ i, ∀ p ∈ (net.radio i).sent, Regular p
  packet : ∀ p ∈ net.packet, Regular p

theorem newNode_able (now rand junk junk' seeds) :
    ∃ s, newNode now rand junk junk' seeds = .ok s ∧ s.Able := by
  obtain ⟨r, e, h27, _⟩ := Props.shipped_registry .host seeds
  have hn : newNode now rand junk junk' seeds =
      .ok (((Node.init now rand junk junk').setNumEffects r.getNumEffects).setNumPalettes
        (BitVec.ofNat 8 Firefly.palettes.length)) := by
    simp only [newNode, e, bind, Except.bind, pure, Except.pure]
  have wf : (Node.init now rand junk junk').WF := Node.WF.init
  refine ⟨_, hn, ⟨wf.idx, wf.next, wf.timerNone⟩, h27, rfl, rfl, ?_, (by decide : 0 < 27), ?_⟩
  · refine .inr (.inr ⟨rfl, rfl, ?_, ?_⟩)
    · show (((junk'.2.set 0 1).set 1 0).set 2 0)[0].toNat < 27
      simp
    · show (((junk'.2.set 0 1).set 1 0).set 2 0)[2].toNat < 22
      simp
  · intro p hp; cases hp

theorem device_able {r : FakeRadio} {s : Node} {now} (h : s.Able) (hr : ∀ p ∈ r.sent, Regular p)
    (hrx : ∀ p ∈ r.received, Regular p) :
    ∃ d, FakeDevice.step ⟨r, s⟩ (.tick now now) = .ok d ∧ d.node.Able ∧
      (∀ p ∈ d.radio.sent, Regular p) := by
  obtain ⟨s', h1, k⟩ := h.tick (now := now) (rx := r.received) hrx
  refine ⟨⟨FakeDevice.handOver r s s', s'⟩, ?_, k, ?_⟩
  · simp only [FakeDevice.step, FakeRadio.readPacket, h1, bind, Except.bind, pure, Except.pure]
  · intro p hp
    rw [handOver_sent] at hp
    cases hl : (s'.sent.drop s.sent.length).getLast? with
    | none => rw [hl] at hp; exact hr p hp
    | some q =>
      rw [hl] at hp
      cases hp
      exact k.sent _ (List.mem_of_mem_drop (List.mem_of_getLast? hl))

theorem handOver_received (r : FakeRadio) (s s' : Node) :
    (FakeDevice.handOver r s s').received = r.received := by
  unfold FakeDevice.handOver
  rw [FakeRadio.sendAll]

theorem tickNode_able {n} {net : FakeNet n} {i} (h : net.Able)
    (hrx : ∀ i, ∀ p ∈ (net.radio i).received, Regular p) :
    ∃ net', net.tickNode i = .ok net' ∧ net'.Able ∧
      ∀ i, ∀ p ∈ (net'.radio i).received, Regular p := by
  obtain ⟨d, h1, k1, k2⟩ := device_able (now := net.now) (h.node i) (h.radio i) (hrx i)
  have hn : ∃ net', net.tickNode i = .ok net' := by
    simp only [tickNode, h1, bind, Except.bind, pure, Except.pure]
    exact ⟨_, rfl⟩
  obtain ⟨net', hn⟩ := hn
  obtain ⟨d', g1, _, _, g4, g5, g6⟩ := tickNode_ok hn
  have : d' = d := by
    have g1 : FakeDevice.step _ _ = _ := g1
    rw [h1] at g1; cases g1; rfl
  subst this
  have hrec : d'.radio.received = (net.radio i).received := by
    rw [(step_tick h1).2, handOver_received]
  refine ⟨net', hn, ⟨?_, ?_, ?_⟩, ?_⟩
  · intro j
    by_cases hj : j = i
    · subst hj; rw [g4]; exact k1
    · rw [(g5 j hj).1]; exact h.node j
  · intro j
    by_cases hj : j = i
    · subst hj
      rcases g6 with ⟨_, _, e⟩ | ⟨_, _, e⟩ <;> rw [e]
      · intro p hp; cases hp
      · exact k2
    · rw [(g5 j hj).2]; exact h.radio j
  · rcases g6 with ⟨_, e, _⟩ | ⟨_, e, _⟩ <;> rw [e]
    · exact k2
    · exact h.packet
  · intro j
    by_cases hj : j = i
    · subst hj
      rcases g6 with ⟨_, _, e⟩ | ⟨_, _, e⟩ <;> rw [e]
      · show ∀ p ∈ d'.radio.received, _
        rw [hrec]; exact hrx j
      · rw [hrec]; exact hrx j
    · rw [(g5 j hj).2]; exact hrx j

theorem fold_able {n} (l : List (Fin n)) {net : FakeNet n} (h : net.Able)
    (hrx : ∀ i, ∀ p ∈ (net.radio i).received, Regular p) :
    ∃ net', l.foldlM tickNode net = .ok net' ∧ net'.Able := by
  induction l generalizing net with
  | nil => exact ⟨net, rfl, h⟩
  | cons i l ih =>
    obtain ⟨n1, h1, k1, r1⟩ := tickNode_able (i := i) h hrx
    obtain ⟨n2, h2, k2⟩ := ih k1 r1
    refine ⟨n2, ?_, k2⟩
    rw [List.foldlM_cons, h1]
    exact h2

theorem tick_able {n} {net : FakeNet n} {draws} (h : net.Able) :
    ∃ net', net.tick draws = .ok net' ∧ net'.Able := by
  refine fold_able _ ⟨h.node, h.radio, fun p hp => by cases hp⟩ ?_
  intro i p hp
  have hp : p ∈ (if heard net.loss (draws i) then net.packet else none).map FakeRadio.clearTail := hp
  split at hp
  · obtain ⟨q, hq, rfl⟩ := Option.map_eq_some_iff.1 hp
    exact regular_tidy (h.packet q hq)
  · cases hp

theorem booted_able {n} {net : FakeNet n} (h : net.Booted) : net.Able := by
  have key : ∀ i, (net.node i).Able ∧ ∀ p ∈ (net.radio i).sent, Regular p := by
    intro i
    obtain ⟨rand, junk, junk', seeds, hb⟩ := h.device i
    obtain ⟨s, e, k⟩ := newNode_able (BitVec.ofNat 32 (i.val + 1)) rand junk junk' seeds
    obtain ⟨d, hd, k1, k2⟩ := device_able (r := .init) (now := BitVec.ofNat 32 (i.val + 1)) k
      (fun p hp => by cases hp) (fun p hp => by cases hp)
    have : d = ⟨net.radio i, net.node i⟩ := by
      simp only [boot, e, bind, Except.bind, hd] at hb
      cases hb; rfl
    subst this
    exact ⟨k1, k2⟩
  exact ⟨fun i => (key i).1, fun i => (key i).2, by rw [h.packet]; intro p hp; cases hp⟩

theorem step_able {n} {net : FakeNet n} (h : net.Able) (a : Act n) :
    ∃ net', net.step a = .ok net' ∧ net'.Able := by
  cases a with
  | advance time => exact ⟨_, rfl, h.node, h.radio, h.packet⟩
  | tick draws => exact tick_able h
  | loss k => exact ⟨_, rfl, h.node, h.radio, h.packet⟩
  | transmit p => exact ⟨_, rfl, h.node, h.radio, h.packet⟩
  | reinit i rand junk junk' seeds =>
    obtain ⟨s, e, k⟩ := newNode_able net.now rand junk junk' seeds
    refine ⟨{ net with node := fun j => if j = i then s else net.node j }, ?_, ?_, h.radio,
      h.packet⟩
    · show reinitNode i rand junk junk' seeds net = _
      simp only [reinitNode, e, bind, Except.bind, pure, Except.pure]
    · intro j
      show (if j = i then s else net.node j).Able
      split
      · exact k
      · exact h.node j

theorem after_able {n} {net : FakeNet n} (h : net.Able) (acts : List (Act n)) :
    ∃ net', net.after acts = .ok net' ∧ net'.Able := by
  induction acts generalizing net with
  | nil => exact ⟨net, rfl, h⟩
  | cons a l ih =>
    obtain ⟨n1, h1, k1⟩ := step_able h a
    obtain ⟨n2, h2, k2⟩ := ih k1
    refine ⟨n2, ?_, k2⟩
    unfold after at *
    rw [List.foldlM_cons, h1]
    exact h2

end FakeNet
end Firefly
