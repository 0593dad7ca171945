import Verif.Spec.HwNet
import Verif.Lemmas.Board

/-! # Helper lemmas for networks of radio devices -/

set_option linter.unusedSimpArgs false

namespace Firefly
open Spec Props

/-- Everything the device heard so far had length 0. -/
def Deaf (h : List Entry) : Prop := ∀ e ∈ h, ∀ p, Entry.heard e = some p → p.len = 0

/-- A device that got its instruction from the radio lost the length; otherwise it is the
author. -/
theorem own_instruction {s₀ : Node} {t₀ rand junk junk'} (h₀ : s₀ = Node.init t₀ rand junk junk')
    {h s} (x : Exec .arduino s₀ h s) (hd : Deaf h) (hl : s.setEffectPacket.len ≠ 0) :
    ∃ a, Authored h a ∧ SameContent s.setEffectPacket a := by
  have wf₀ : s₀.WF := h₀ ▸ .init
  induction x with
  | nil =>
    subst h₀
    refine ⟨_, .inl ⟨rfl, rfl, ?_, ?_, ?_⟩, .refl⟩ <;>
      simp [Node.init, Packet.writeSetEffect]
  | @cons h s op s' hx hst ih =>
    have hd' : Deaf h := fun e he => hd e (List.mem_cons_of_mem _ he)
    have mono : ∀ a, Authored h a → Authored (⟨s, op, s'⟩ :: h) a := by
      rintro a (ha | ⟨e, he, ha⟩)
      · exact .inl ha
      · exact .inr ⟨e, List.mem_cons_of_mem _ he, ha⟩
    have keep : s'.setEffectPacket.type = s.setEffectPacket.type →
        s'.setEffectPacket.len = s.setEffectPacket.len →
        s'.setEffectPacket.data = s.setEffectPacket.data →
        ∃ a, Authored (⟨s, op, s'⟩ :: h) a ∧ SameContent s'.setEffectPacket a := by
      intro h1 h2 h3
      obtain ⟨a, ha, hc⟩ := ih hd' (by rw [← h2]; exact hl)
      exact ⟨a, mono a ha, h1.trans hc.1, h2.trans hc.2.1, h3.trans hc.2.2⟩
    cases in_step (hx.wf wf₀) hst with
    | keep _ _ hc => exact keep (by rw [hc]) (by rw [hc]) (by rw [hc])
    | takeOver _ _ _ _ hc => exact keep (by rw [hc]) (by rw [hc]) (by rw [hc])
    | locally p hop _ hc =>
      exact ⟨p, .inr ⟨_, List.mem_cons_self, .inl ⟨_, hop⟩⟩, hc⟩
    | slaveHeard p hh _ _ _ hc =>
      exact absurd (by rw [hc]; exact hd _ List.mem_cons_self p hh) hl
    | masterHeard p hh _ _ _ hc =>
      exact absurd (by rw [hc]; exact hd _ List.mem_cons_self p hh) hl
    | change q hf => exact ⟨q, .inr ⟨_, List.mem_cons_self, .inr hf⟩, hf.adopted⟩
    | repeats q hf => exact keep hf.kept.1 hf.kept.2.1 hf.kept.2.2

/-- What an instruction put on the air without having been heard in the same step is. -/
theorem composed_instruction {s₀ : Node} {t₀ rand junk junk'}
    (h₀ : s₀ = Node.init t₀ rand junk junk') {h s} (x : Exec .arduino s₀ h s) (hd : Deaf h)
    {e q} (he : e ∈ h) (hn : Entry.heard e = none) (hq : q ∈ Entry.transmitted e)
    (hi : IsInstruction q) (hl : q.len ≠ 0) : ∃ a, Authored h a ∧ SameContent q a := by
  have wf₀ : s₀.WF := h₀ ▸ .init
  induction x with
  | nil => cases he
  | @cons h s op s' hx hst ih =>
    have hd' : Deaf h := fun e he => hd e (List.mem_cons_of_mem _ he)
    have mono : ∀ a, Authored h a → Authored (⟨s, op, s'⟩ :: h) a := by
      rintro a (ha | ⟨e, he, ha⟩)
      · exact .inl ha
      · exact .inr ⟨e, List.mem_cons_of_mem _ he, ha⟩
    rcases List.mem_cons.1 he with rfl | he
    · cases in_step (hx.wf wf₀) hst with
      | keep _ _ _ _ _ _ _ htx => exact absurd hi (htx q hq)
      | takeOver _ _ _ _ _ _ _ _ _ htx => exact absurd hi (htx q hq)
      | locally p hop _ hc _ _ _ _ htx =>
        rw [htx] at hq
        rcases List.mem_singleton.1 hq with rfl
        exact ⟨p, .inr ⟨_, List.mem_cons_self, .inl ⟨_, hop⟩⟩, hc⟩
      | slaveHeard p hh => rw [hn] at hh; cases hh
      | masterHeard p hh => rw [hn] at hh; cases hh
      | change r hf =>
        rw [hf.sent] at hq
        rcases List.mem_singleton.1 hq with rfl
        exact ⟨_, .inr ⟨_, List.mem_cons_self, .inr hf⟩, .refl⟩
      | repeats r hf =>
        rw [hf.sent] at hq
        rcases List.mem_singleton.1 hq with rfl
        obtain ⟨a, ha, hc⟩ := own_instruction h₀ hx hd' (by
          have := hf.same.2.1
          rw [this] at hl; exact hl)
        exact ⟨a, mono a ha, hf.same.trans hc⟩
    · obtain ⟨a, ha, hc⟩ := ih hd' he
      exact ⟨a, mono a ha, hc⟩

/-- A step that hears something of length 0 puts only empty packets on the air. -/
theorem heard_transmits_empty {op} {s s' : Node} (wf : s.WF)
    (hst : Op.step .arduino op s = .ok s') {p} (hh : Entry.heard ⟨s, op, s'⟩ = some p)
    (hp : p.len = 0) {q} (hq : q ∈ Entry.transmitted ⟨s, op, s'⟩) : q.len = 0 := by
  cases op with
  | radioTick now rx =>
    have hh' := fun x => heard_tick (s' := x) (now := now) (rx := rx) wf
    rw [hh'] at hh
    cases Node.radioTick_cases wf hst <;>
      simp_all [Entry.transmitted, Node.setTimer, Node.afterAccept, Node.afterSlaveEffect,
        Node.stamped]
    case electionWon =>
      rcases hq with rfl | rfl
      · exact hp
      · rfl
  | _ => cases hh

/-- A claim put on the air was heard in the same step or is empty. -/
theorem transmitted_claim {op} {s s' : Node} (wf : s.WF) (hi : IsInstruction s.setEffectPacket)
    (hproper : ∀ now p, op = .setEffect now p → IsInstruction p)
    (hst : Op.step .arduino op s = .ok s') {q} (hq : q ∈ Entry.transmitted ⟨s, op, s'⟩)
    (ht : q.type = .claimMaster) : Entry.heard ⟨s, op, s'⟩ = some q ∨ q.len = 0 := by
  cases op with
  | radioTick now rx =>
    have hh := fun x => heard_tick (s' := x) (now := now) (rx := rx) wf
    cases Node.radioTick_cases wf hst <;>
      simp_all [Entry.transmitted, Node.setTimer, Node.afterAccept, Node.afterSlaveEffect,
        Packet.writeHeartbeat, Packet.writeSetEffect, Node.stamped, IsInstruction]
    case electionWon =>
      rcases hq with rfl | rfl <;> simp
  | setEffect now p =>
    simp only [Op.step] at hst
    rw [Node.setEffect_eq wf.idx] at hst
    split at hst
    · cases hst
    · cases hst
      simp [Entry.transmitted, Node.afterSetEffect, Node.stamped] at hq
      subst hq
      rcases hproper now p rfl with h | h <;> rw [h] at ht <;> cases ht
  | setNumPalettes now n => cases hst; simp [Entry.transmitted, Node.setNumPalettes] at hq
  | setNumEffects now n => cases hst; simp [Entry.transmitted, Node.setNumEffects] at hq
  | endTick now => cases hst; simp [Entry.transmitted] at hq

/-! ### The network -/

/-- What holds in every network that can arise. -/
structure HwInv {n} (nbrs : Fin n → List (Fin n)) (net : HwNet n) : Prop where
  exec : ∀ i, ∃ t₀ rand junk junk',
    Exec .arduino (Node.init t₀ rand junk junk') (net.hist i) (net.node i)
  proper : ∀ i, ProperUse (net.hist i)
  air : ∀ j f, (j, f) ∈ net.air →
    ∃ e ∈ net.hist j, ∃ q ∈ Entry.transmitted e, Hw.sendPacket q = .ok f
  heard : ∀ i, ∀ e ∈ net.hist i, ∀ p, Entry.heard e = some p →
    ∃ j f, i ∈ nbrs j ∧ (j, f) ∈ net.air ∧ Decodes f p

theorem hwInv_reach {n nbrs} {net : HwNet n} (hr : HwNet.Reach nbrs net) : HwInv nbrs net := by
  induction hr with
  | @boot net hb =>
    refine ⟨fun i => ?_, fun i => ?_, ?_, ?_⟩
    · obtain ⟨t₀, rand, j, j', h⟩ := hb.node i
      refine ⟨t₀, rand, j, j', ?_⟩
      rw [h, hb.hist i]
      exact .nil
    · rw [hb.hist i]; intro e he; cases he
    · intro j f hf; rw [hb.air] at hf; cases hf
    · intro i e he; rw [hb.hist i] at he; cases he
  | @step net net' _ hs ih =>
    obtain ⟨i, op, hrx, hproper, hst, hfs⟩ := hs
    rename_i s' fs
    have wf : (net.node i).WF := by
      obtain ⟨t₀, rand, j, j', x⟩ := ih.exec i
      exact x.wf .init
    refine ⟨fun k => ?_, fun k => ?_, ?_, ?_⟩
    · by_cases hk : k = i
      · subst hk
        simp only [if_true]
        obtain ⟨t₀, rand, j, j', x⟩ := ih.exec k
        exact ⟨t₀, rand, j, j', .cons op x hst⟩
      · simp only [if_neg hk]
        exact ih.exec k
    · by_cases hk : k = i
      · subst hk
        simp only [if_true]
        intro e he now p ho
        rcases List.mem_cons.1 he with rfl | he
        · exact hproper now p ho
        · exact ih.proper k e he now p ho
      · simp only [if_neg hk]
        exact ih.proper k
    · intro j f hf
      rcases List.mem_append.1 hf with hf | hf
      · obtain ⟨g, hg, hgf⟩ := List.mem_map.1 hf
        cases hgf
        obtain ⟨q, hq, hsend⟩ := mapM_mem hfs hg
        simp only [if_true]
        exact ⟨_, List.mem_cons_self, q, hq, hsend⟩
      · obtain ⟨e, he, q, hq, hsend⟩ := ih.air j f hf
        refine ⟨e, ?_, q, hq, hsend⟩
        by_cases hk : j = i
        · subst hk; simp only [if_true]; exact List.mem_cons_of_mem _ he
        · simp only [if_neg hk]; exact he
    · intro k e he p hp
      have old : e ∈ net.hist k → ∃ j f, k ∈ nbrs j ∧ (j, f) ∈ fs.map (i, ·) ++ net.air ∧
          Decodes f p := by
        intro he
        obtain ⟨j, f, h1, h2, h3⟩ := ih.heard k e he p hp
        exact ⟨j, f, h1, List.mem_append_right _ h2, h3⟩
      by_cases hk : k = i
      · subst hk
        simp only [if_true] at he
        rcases List.mem_cons.1 he with rfl | he
        · cases op with
          | radioTick now rx =>
            have hrx' := heard_rx wf hp
            subst hrx'
            obtain ⟨l, _, hl, hair⟩ := hrx now _ rfl
            obtain ⟨f, hf, _, hdec⟩ := Board.Listen.packet_decodes hl
            obtain ⟨j, h1, h2⟩ := hair f hf
            exact ⟨j, f, h1, List.mem_append_right _ h2, hdec⟩
          | _ => cases hp
        · exact old he
      · simp only [if_neg hk] at he
        exact old he

theorem HwInv.deaf {n nbrs} {net : HwNet n} (hi : HwInv nbrs net) (i : Fin n) :
    Deaf (net.hist i) := by
  intro e he p hp
  obtain ⟨j, f, _, _, hd⟩ := hi.heard i e he p hp
  exact hd.len

/-- Every step of a history, with the state of the device before it. -/
theorem exec_entry {plat s₀ h s} (x : Exec plat s₀ h s) (wf : s₀.WF) {e} (he : e ∈ h) :
    ∃ h', Exec plat s₀ h' e.pre ∧ e.pre.WF ∧ e.op.step plat e.pre = .ok e.post ∧
      (∀ e' ∈ h', e' ∈ h) := by
  induction x with
  | nil => cases he
  | @cons h s op s' hx hst ih =>
    rcases List.mem_cons.1 he with rfl | he
    · exact ⟨h, hx, hx.wf wf, hst, fun e' he' => List.mem_cons_of_mem _ he'⟩
    · obtain ⟨h', x', w, hs, hm⟩ := ih he
      exact ⟨h', x', w, hs, fun e' he' => List.mem_cons_of_mem _ (hm e' he')⟩

/-- The frame of a packet decodes to the packet. -/
theorem decodes_sent {q p : Packet} {f} (hs : Hw.sendPacket q = .ok f) (hd : Decodes f p) :
    1 ≤ q.len.toNat ∧ p.id = q.id ∧ Carries p q := by
  have h58 : q.len.toNat ≤ 58 := by
    apply Nat.le_of_not_lt
    intro h
    rw [Hw.sendPacket, if_pos (.inl h)] at hs
    cases hs
  rw [sendPacket_ok h58] at hs
  cases hs
  obtain ⟨hlen, ⟨hi, lo, h0, h1, hid⟩, ht, hdata, _⟩ := hd
  refine ⟨?_, ?_, ?_, ?_⟩
  · simp at hlen; omega
  · cases h0
    cases h1
    apply BitVec.eq_of_toNat_eq
    rw [hid, high_byte, low_byte]
    omega
  · have h2 : Hw.byteOfType q.type = Hw.byteOfType p.type := Option.some.inj ht
    have := congrArg Hw.typeOfByte h2
    rw [typeOfByte_byteOfType, typeOfByte_byteOfType] at this
    exact this.symm
  · intro k hk hkl
    have := hdata k hk (by simp; omega)
    rw [List.getElem?_append_right (by simp)] at this
    simp [List.getElem?_take, hkl, Vector.getElem?_eq_getElem hk] at this
    exact this.symm

end Firefly
