import Verif.Spec.Stability
import Verif.Props.HwNet
import Verif.Props.Takeover
import Verif.Props.ClockSync

/-! # A settled network stays settled (C110) -/

set_option linter.unusedSimpArgs false
set_option linter.unusedVariables false

namespace Firefly.Props
open Firefly Spec

/-- Only a master composes heartbeats. -/
theorem composed_heartbeat {op} {s s' : Node} (wf : s.WF) (hi : IsInstruction s.setEffectPacket)
    (hproper : ∀ now p, op = .setEffect now p → IsInstruction p)
    (hst : Op.step .arduino op s = .ok s') {q} (hq : q ∈ Entry.transmitted ⟨s, op, s'⟩)
    (hn : Entry.heard ⟨s, op, s'⟩ = none) (ht : q.type = .heartbeat) :
    s'.getCurrentState = .master ∧ q.len = 4 := by
  cases op with
  | radioTick now rx =>
    have hh := fun x => heard_tick (s' := x) (now := now) (rx := rx) wf
    cases Node.radioTick_cases wf hst <;>
      simp_all [Entry.transmitted, Node.setTimer, Node.afterAccept, Node.afterSlaveEffect,
        Packet.writeHeartbeat, Packet.writeSetEffect, Node.stamped, IsInstruction,
        Node.getCurrentState]
  | setEffect now p =>
    simp only [Op.step] at hst
    rw [Node.setEffect_eq wf.idx] at hst
    split at hst
    · cases hst
    · cases hst
      simp [Entry.transmitted, Node.afterSetEffect, Node.stamped] at hq
      subst hq
      rcases hproper now p rfl with h | h <;> rw [h] at ht <;> cases ht
  | setNumPalettes now n => cases hst; simp [Entry.transmitted, Node.setNumPalettes] at hq
  | setNumEffects now n => cases hst; simp [Entry.transmitted, Node.setNumEffects] at hq
  | endTick now => cases hst; simp [Entry.transmitted] at hq

/-- A step remains possible with more frames on the air. -/
theorem step_more_air {n nbrs} {net net' : HwNet n} (old : List (Fin n × List U8))
    (h : HwNet.Step nbrs net net') :
    HwNet.Step nbrs { net with air := net.air ++ old } { net' with air := net'.air ++ old } := by
  obtain ⟨i, op, hrx, hproper, hst, hfs⟩ := h
  have := HwNet.Step.act (nbrs := nbrs) (net := { net with air := net.air ++ old }) i op
    (fun now rx ho => by
      obtain ⟨l, h1, h2, h3⟩ := hrx now rx ho
      exact ⟨l, h1, h2, fun f hf => by
        obtain ⟨j, hj, hm⟩ := h3 f hf
        exact ⟨j, hj, List.mem_append_left _ hm⟩⟩) hproper hst hfs
  simpa [List.append_assoc] using this

/-- What happens after the old frames are gone can also happen with them. -/
theorem reach_cleared {n nbrs} {net₀ net : HwNet n} (hr : HwNet.Reach nbrs net₀)
    (hs : HwNet.Steps nbrs { net₀ with air := [] } net) :
    HwNet.Reach nbrs { net with air := net.air ++ net₀.air } := by
  induction hs with
  | refl => exact hr
  | step _ h ih => exact .step ih (step_more_air _ h)

/-- The role a settled network assigns to device `i`. -/
def roleIn {n} (m i : Fin n) : RadioState := if i = m then .master else .slave

/-- What holds in a settled network. -/
structure Settled {n} (nbrs : Fin n → List (Fin n)) (net₀ : HwNet n) (m : Fin n) (net : HwNet n) :
    Prop where
  state : ∀ i, (net.node i).state = roleIn m i
  hist : ∀ i, net.hist i = since net₀ net i ++ net₀.hist i
  roles : ∀ i, ∀ e ∈ since net₀ net i, e.pre.state = roleIn m i ∧ e.post.state = roleIn m i
  air : ∀ j f, (j, f) ∈ net.air → ∃ e ∈ since net₀ net j, ∃ q ∈ Entry.transmitted e,
    Hw.sendPacket q = .ok f
  heard : ∀ i, ∀ e ∈ since net₀ net i, ∀ p, Entry.heard e = some p →
    ∃ j f, i ∈ nbrs j ∧ (j, f) ∈ net.air ∧ Decodes f p

theorem hist_length {n} {net₀ net : HwNet n} {i}
    (h : net.hist i = since net₀ net i ++ net₀.hist i) :
    (net₀.hist i).length ≤ (net.hist i).length := by
  rw [h, List.length_append]; omega

theorem since_cons {n} {net₀ net net' : HwNet n} {i e}
    (h : net.hist i = since net₀ net i ++ net₀.hist i) (he : net'.hist i = e :: net.hist i) :
    since net₀ net' i = e :: since net₀ net i := by
  have hl := hist_length h
  rw [since, he, List.length_cons,
    show (net.hist i).length + 1 - (net₀.hist i).length =
      (net.hist i).length - (net₀.hist i).length + 1 by omega, List.take_succ_cons]
  rfl

theorem since_same {n} {net₀ net net' : HwNet n} {i} (he : net'.hist i = net.hist i) :
    since net₀ net' i = since net₀ net i := by
  rw [since, he]; rfl

/-- In a settled network a heartbeat that arrives comes from the master. -/
theorem Settled.heartbeat {n nbrs} {net₀ net : HwNet n} {m : Fin n}
    (hr : HwNet.Reach nbrs { net with air := net.air ++ net₀.air }) (st : Settled nbrs net₀ m net)
    {j f} (hf : (j, f) ∈ net.air) {p : Packet} (hd : Decodes f p) (ht : p.type = .heartbeat) :
    j = m ∧ ∃ e ∈ since net₀ net m, ∃ q ∈ Entry.transmitted e, Entry.heard e = none ∧
      q.type = .heartbeat ∧ q.len = 4 ∧ Carries p q := by
  obtain ⟨e', he', q, hq, hsend⟩ := st.air j f hf
  obtain ⟨h3, -, h4⟩ := decodes_sent hsend hd
  have inv0 := hwInv_reach hr
  have hin : e' ∈ net.hist j := by rw [st.hist j]; exact List.mem_append_left _ he'
  obtain ⟨t₂, rand₂, ju₂, ju₂', x₂⟩ := inv0.exec j
  obtain ⟨h', x', wf', hst', hsub⟩ := exec_entry x₂ .init hin
  have hprop : ProperUse h' := fun e he => inv0.proper j e (hsub e he)
  have hn : Entry.heard e' = none := by
    cases hh' : Entry.heard e' with
    | none => rfl
    | some p' =>
      have := heard_transmits_empty wf' hst' hh' (inv0.deaf j e' hin p' hh') hq
      rw [this] at h3; exact absurd h3 (by decide)
  obtain ⟨h5, h6⟩ := composed_heartbeat wf' (Run.instruction ⟨_, _, _, x'⟩ hprop)
    (fun now p ho => inv0.proper j e' hin now p ho) hst' hq hn (h4.1 ▸ ht)
  have hj : j = m := by
    simp only [Node.getCurrentState] at h5
    rw [(st.roles j e' he').2, roleIn] at h5
    split at h5
    · assumption
    · cases h5
  subst hj
  exact ⟨rfl, e', he', q, hq, hn, h4.1 ▸ ht, h6, h4⟩

theorem settled {n nbrs} {net₀ net : HwNet n} (hr : HwNet.Reach nbrs net₀) {m : Fin n}
    (hself : m ∉ nbrs m) (hm : HwNet.SoleMaster net₀ m)
    (hs : HwNet.Steps nbrs { net₀ with air := [] } net)
    (hreg : ∀ i, i ≠ m → KeepsHearing net₀ net i) : Settled nbrs net₀ m net := by
  induction hs with
  | refl =>
    have h0 : ∀ i, since net₀ { net₀ with air := [] } i = [] := by
      intro i; simp [since]
    refine ⟨fun i => ?_, fun i => by rw [h0]; rfl, fun i e he => ?_, fun j f hf => (by cases hf),
      fun i e he => ?_⟩
    · have := hm i
      simp only [Node.getCurrentState] at this
      show (net₀.node i).state = _
      unfold roleIn
      split
      · exact this.2 ‹_›
      · cases h : (net₀.node i).state with
        | slave => rfl
        | master => exact absurd (this.1 h) ‹_›
    · rw [h0] at he; cases he
    · rw [h0] at he; cases he
  | @step net net' hs hstep ih =>
    have hr' := reach_cleared hr (.step hs hstep)
    have inv := hwInv_reach hr'
    have hr0 := reach_cleared hr hs
    have inv0 := hwInv_reach hr0
    obtain ⟨i, op, hrx, hproper, hst, hfs⟩ := hstep
    rename_i s' fs
    have hl : ∀ k, (net₀.hist k).length ≤ (net.hist k).length ∧
        net.hist k = since net₀ net k ++ net₀.hist k := by
      have : ∀ net, HwNet.Steps nbrs { net₀ with air := [] } net →
          ∀ k, net.hist k = since net₀ net k ++ net₀.hist k := by
        intro net hs
        induction hs with
        | refl => intro k; simp [since]
        | @step net net' hs h ih =>
          intro k
          obtain ⟨i, op, _, _, _, _⟩ := h
          by_cases hk : k = i
          · subst hk
            rw [since_cons (ih k) (if_pos rfl)]
            simp only [if_true, List.cons_append]
            rw [← ih k]
          · rw [since_same (if_neg hk)]
            simp only [if_neg hk]
            exact ih k
      exact fun k => ⟨hist_length (this net hs k), this net hs k⟩
    -- the hypothesis for the shorter history
    have hreg' : ∀ k, k ≠ m → KeepsHearing net₀ net k := by
      intro k hk
      obtain ⟨t₀, r, c, h⟩ := hreg k hk
      by_cases hki : k = i
      · subst hki
        rw [since_cons (hl k).2 (if_pos rfl)] at h
        simp only [if_true] at r c
        exact ⟨t₀, r.cons_inv.1, c.cons.1, fun h₁ e h₂ heq => h (_ :: h₁) e h₂ (by rw [heq]; rfl)⟩
      · rw [since_same (net := net) (if_neg hki)] at h
        simp only [if_neg hki] at r c
        exact ⟨t₀, r, c, h⟩
    have st := ih hreg'
    obtain ⟨t₁, rand, ju, ju', x⟩ := inv0.exec i
    have wf : (net.node i).WF := x.wf .init
    -- the device keeps its role
    have role : s'.state = roleIn m i := by
      by_cases him : i = m
      · have hpre : (net.node i).getCurrentState = .master := by
          show (net.node i).state = _
          rw [st.state i, roleIn, if_pos him]
        cases hp : s'.state with
        | master => rw [roleIn, if_pos him]
        | slave =>
          exfalso
          obtain ⟨p, hh, ht, -⟩ := (hw_demoted_only_by_heartbeat hr' (i := i)
            (e := ⟨net.node i, op, s'⟩) (by simp) hpre).1 hp
          cases op with
          | radioTick now rx =>
            have hrx' := heard_rx wf hh
            subst hrx'
            obtain ⟨l, _, hl, hair⟩ := hrx now _ rfl
            obtain ⟨f, hf, _, hdec⟩ := Board.Listen.packet_decodes hl
            obtain ⟨j, h1, h2⟩ := hair f hf
            obtain ⟨rfl, -⟩ := st.heartbeat hr0 h2 hdec ht
            exact hself (him ▸ h1)
          | _ => cases hh
      · obtain ⟨t₀, r', c, h⟩ := hreg i him
        rw [since_cons (hl i).2 (if_pos rfl)] at h
        simp only [if_true] at r' c
        have hpre : (net.node i).state = .slave := by rw [st.state i, roleIn, if_neg him]
        cases hp : s'.state with
        | slave => rw [roleIn, if_neg him]
        | master =>
          exfalso
          obtain ⟨t, ht, hle⟩ := h [] _ _ rfl
          rw [← (hl i).2] at ht
          have hpu : ProperUse (⟨net.node i, op, s'⟩ :: net.hist i) := by
            have := inv.proper i
            simpa using this
          have := no_takeover_before_silence r' c hpu ⟨hpre, hp⟩ t ht
          omega
    have hsi : since net₀ { node := fun k => if k = i then s' else net.node k
                            hist := fun k => if k = i then ⟨net.node i, op, s'⟩ :: net.hist i
                              else net.hist k
                            air := fs.map (i, ·) ++ net.air } i =
        ⟨net.node i, op, s'⟩ :: since net₀ net i := since_cons (hl i).2 (if_pos rfl)
    have hsk : ∀ k, k ≠ i →
        since net₀ { node := fun k => if k = i then s' else net.node k
                     hist := fun k => if k = i then ⟨net.node i, op, s'⟩ :: net.hist i
                       else net.hist k
                     air := fs.map (i, ·) ++ net.air } k = since net₀ net k :=
      fun k hk => since_same (if_neg hk)
    refine ⟨fun k => ?_, fun k => ?_, fun k e he => ?_, fun j f hf => ?_, fun k e he p hp => ?_⟩
    · by_cases hk : k = i
      · subst hk; simpa using role
      · simp only [if_neg hk]; exact st.state k
    · by_cases hk : k = i
      · subst hk; rw [hsi]; simp only [if_true, List.cons_append]; rw [← (hl k).2]
      · rw [hsk k hk]; simp only [if_neg hk]; exact (hl k).2
    · by_cases hk : k = i
      · subst hk
        rw [hsi] at he
        rcases List.mem_cons.1 he with rfl | he
        · exact ⟨st.state k, role⟩
        · exact st.roles k e he
      · rw [hsk k hk] at he; exact st.roles k e he
    · rcases List.mem_append.1 hf with hf | hf
      · obtain ⟨g, hg, hgf⟩ := List.mem_map.1 hf
        cases hgf
        obtain ⟨q, hq, hsend⟩ := mapM_mem hfs hg
        rw [hsi]
        exact ⟨_, List.mem_cons_self, q, hq, hsend⟩
      · obtain ⟨e, he, q, hq, hsend⟩ := st.air j f hf
        refine ⟨e, ?_, q, hq, hsend⟩
        by_cases hk : j = i
        · subst hk; rw [hsi]; exact List.mem_cons_of_mem _ he
        · rw [hsk j hk]; exact he
    · have old : e ∈ since net₀ net k → ∃ j f, k ∈ nbrs j ∧ (j, f) ∈ fs.map (i, ·) ++ net.air ∧
          Decodes f p := by
        intro he
        obtain ⟨j, f, h1, h2, h3⟩ := st.heard k e he p hp
        exact ⟨j, f, h1, List.mem_append_right _ h2, h3⟩
      by_cases hk : k = i
      · subst hk
        rw [hsi] at he
        rcases List.mem_cons.1 he with rfl | he
        · cases op with
          | radioTick now rx =>
            have hrx' := heard_rx wf hp
            subst hrx'
            obtain ⟨l, _, hl, hair⟩ := hrx now _ rfl
            obtain ⟨f, hf, _, hdec⟩ := Board.Listen.packet_decodes hl
            obtain ⟨j, h1, h2⟩ := hair f hf
            exact ⟨j, f, h1, List.mem_append_right _ h2, hdec⟩
          | _ => cases hp
        · exact old he
      · rw [hsk k hk] at he
        exact old he

/-- C110.  Suppose `m` is the only master and frames sent earlier are no longer received.  Then as
long as all other devices keep hearing a master, `m` remains the only master, whatever the
topology, the schedule and the losses. -/
theorem sole_master_stable {n nbrs} {net₀ net : HwNet n} (hr : HwNet.Reach nbrs net₀) {m : Fin n}
    (hself : m ∉ nbrs m) (hm : HwNet.SoleMaster net₀ m)
    (hs : HwNet.Steps nbrs { net₀ with air := [] } net)
    (hreg : ∀ i, i ≠ m → KeepsHearing net₀ net i) : HwNet.SoleMaster net m := by
  intro i
  show (net.node i).state = .master ↔ _
  rw [(settled hr hself hm hs hreg).state i, roleIn]
  split <;> simp_all

theorem exec_split {plat s₀ h₁ e h₂ s} (x : Exec plat s₀ (h₁ ++ e :: h₂) s) :
    Exec plat s₀ h₂ e.pre ∧ e.op.step plat e.pre = .ok e.post ∧ Exec plat e.post h₁ s := by
  induction h₁ generalizing s with
  | nil => cases x with | cons op hx hst => exact ⟨hx, hst, .nil⟩
  | cons a h₁ ih =>
    cases x with
    | cons op hx hst =>
      obtain ⟨h1, h2, h3⟩ := ih hx
      exact ⟨h1, h2, .cons op h3 hst⟩

/-- The offset of the clock of the master does not change. -/
theorem Settled.master_clock {n nbrs} {net₀ net : HwNet n} {m : Fin n}
    (hr : HwNet.Reach nbrs { net with air := net.air ++ net₀.air }) (st : Settled nbrs net₀ m net)
    {e} (he : e ∈ since net₀ net m) : (net.node m).millisOffset = e.pre.millisOffset := by
  obtain ⟨t₀, rand, ju, ju', x⟩ := (hwInv_reach hr).exec m
  obtain ⟨h₁, h₂, hs⟩ := List.append_of_mem he
  have hh := st.hist m
  rw [hs, List.append_assoc, List.cons_append] at hh
  simp only at x
  rw [hh] at x
  obtain ⟨x1, x2, x3⟩ := exec_split x
  have wf := x1.wf .init
  have hmaster : ∀ a ∈ since net₀ net m, ¬ SyncStep a := by
    intro a ha hc
    have := (st.roles m a ha).1
    rw [roleIn, if_pos rfl] at this
    have h := hc.1
    simp only [Node.getCurrentState] at h
    rw [this] at h; cases h
  have wf' : e.post.WF := Node.step_wf wf x2
  rw [offset_exec wf' x3 fun a ha => hmaster a (hs ▸ List.mem_append_left _ ha)]
  exact offset_step wf x2 (hmaster e he)

/-- Heartbeats are only sent from within `RadioTick`. -/
theorem heartbeat_in_tick {plat op} {s s' : Node} (wf : s.WF) (h : Op.step plat op s = .ok s')
    (hpp : ∀ now p, op = .setEffect now p → IsInstruction p) {q}
    (hq : q ∈ Entry.transmitted ⟨s, op, s'⟩) (hqt : q.type = .heartbeat) :
    Entry.IsTick ⟨s, op, s'⟩ := by
  cases op with
  | radioTick now rx => exact ⟨now, rx, rfl⟩
  | setEffect now p' =>
    have hpp := hpp now p' rfl
    simp only [Op.step] at h
    rw [Node.setEffect_eq wf.idx] at h
    split at h
    · cases h
    · cases h
      simp [Entry.transmitted, Node.afterSetEffect, Node.stamped] at hq
      subst hq
      rcases hpp with h | h <;> simp [h] at hqt
  | setNumPalettes now n => cases h; simp [Entry.transmitted, Node.setNumPalettes] at hq
  | setNumEffects now n => cases h; simp [Entry.transmitted, Node.setNumEffects] at hq
  | endTick now => cases h; simp [Entry.transmitted] at hq

theorem clock_sum (t u o δ : U32) : t + δ + (u + o - t) = u + δ + o := by bv_omega

theorem slave_sync {plat now rx} {s s' : Node} {p : Packet} (wf : s.WF) (hd : s.delivered rx = some p)
    (hs : s.state = .slave) (hp : p.type = .heartbeat) (ht : s.radioTick plat now rx = .ok s') :
    s'.millisOffset = p.timeField - now := by
  cases Node.radioTick_cases wf ht <;> simp_all

theorem slave_takes {plat op} {s s' : Node} {p : Packet} (wf : s.WF) (ht : Op.step plat op s = .ok s')
    (hs : s.state = .slave) (hh : Entry.heard ⟨s, op, s'⟩ = some p) (hp : IsInstruction p) :
    s'.setEffectPacket = p := by
  cases in_step wf ht with
  | keep hu => exact absurd hp (hu.2 p hh)
  | takeOver hu => exact absurd hp (hu.2 p hh)
  | locally p' hop => rw [hop] at hh; cases hh
  | slaveHeard p' hh' _ _ _ hc => rw [hh'] at hh; cases hh; exact hc
  | masterHeard _ _ _ hm => rw [hs] at hm; cases hm
  | change _ _ hm => rw [hs] at hm; cases hm
  | repeats _ _ _ hm => rw [hs] at hm; cases hm

theorem slave_untold {plat h} {s s' : Node} (wf : s.WF) (x : Exec plat s h s')
    (hs : ∀ a ∈ h, a.pre.state = .slave) (hu : ∀ a ∈ h, Untold a) :
    s'.setEffectPacket = s.setEffectPacket := by
  induction x with
  | nil => rfl
  | @cons h b c op x hst ih =>
    have wf' := x.wf wf
    rw [← ih (fun a ha => hs a (List.mem_cons_of_mem _ ha)) fun a ha => hu a (List.mem_cons_of_mem _ ha)]
    have hb := hs _ (List.mem_cons_self ..)
    have hub := hu _ (List.mem_cons_self ..)
    cases in_step wf' hst with
    | keep _ _ hc => exact hc
    | takeOver _ _ _ _ hc => exact hc
    | locally p' hop => exact absurd hop (hub.1 _ _)
    | slaveHeard p' hh' hp => exact absurd hp (hub.2 _ hh')
    | masterHeard p' hh' hp => exact absurd hp (hub.2 _ hh')
    | change _ _ hm => rw [hb] at hm; cases hm
    | repeats _ _ _ hm => rw [hb] at hm; cases hm

/-- Every heartbeat a slave of a settled network hears is one the master sent. -/
theorem settled_origin {n nbrs} {net₀ net : HwNet n} {m : Fin n}
    (hr0 : HwNet.Reach nbrs { net with air := net.air ++ net₀.air }) (st : Settled nbrs net₀ m net)
    {i e} (hin : e ∈ since net₀ net i) (hh : Entry.HeardMaster e) :
    ∃ p, Entry.heard e = some p ∧ p.type = .heartbeat ∧ ∃ e' ∈ since net₀ net m,
      ∃ q ∈ Entry.transmitted e', Entry.heard e' = none ∧ q.type = .heartbeat ∧ q.len = 4 ∧
        Carries p q := by
  obtain ⟨p, hp, hpt⟩ := hh
  have hin' : e ∈ net.hist i := by rw [st.hist i]; exact List.mem_append_left _ hin
  have hpt : p.type = .heartbeat := by
    rcases hpt with h | h
    · exact h
    · exact absurd h (hw_claim_never_heard hr0 (i := i) hin' hp)
  obtain ⟨j, f, hj, hf, hd⟩ := st.heard i e hin p hp
  obtain ⟨rfl, e', he', q, hq, hn, hqt, hql, hc⟩ := st.heartbeat hr0 hf hd hpt
  exact ⟨p, hp, hpt, e', he', q, hq, hn, hqt, hql, hc⟩

/-- The clock of a slave that last heard the heartbeat the master sent in `e'`. -/
theorem settled_clock_from {n nbrs} {net₀ net : HwNet n} {m : Fin n}
    (hr0 : HwNet.Reach nbrs { net with air := net.air ++ net₀.air }) (st : Settled nbrs net₀ m net)
    {i} (hi : i ≠ m) {h₁ e h₂} (hsplit : since net₀ net i = h₁ ++ e :: h₂)
    (hlast : ∀ a ∈ h₁, ¬ Entry.HeardMaster a) {p} (hp : Entry.heard e = some p)
    (hpt : p.type = .heartbeat) {e'} (he' : e' ∈ since net₀ net m) {q}
    (hq : q ∈ Entry.transmitted e') (hn : Entry.heard e' = none) (hqt : q.type = .heartbeat)
    (hql : q.len = 4) (hc : Carries p q) :
    Entry.OwnHeartbeat e' ∧ ∀ δ, (net.node i).getNetworkMillis (Entry.time e + δ) =
        (net.node m).getNetworkMillis (Entry.time e' + δ) := by
  have inv := hwInv_reach hr0
  have hin : e ∈ since net₀ net i := by rw [hsplit]; simp
  -- the sender
  have hinj : e' ∈ net.hist m := by rw [st.hist m]; exact List.mem_append_left _ he'
  obtain ⟨t₁, rand₁, ju₁, ju₁', x⟩ := inv.exec m
  obtain ⟨g, x', wf', hst', hsub⟩ := exec_entry x .init hinj
  have hprop : ProperUse g := fun e he => inv.proper m e (hsub e he)
  have htick : Entry.IsTick e' :=
    heartbeat_in_tick wf' hst' (inv.proper m e' hinj) hq hqt
  have htime : q.timeField = e'.pre.getNetworkMillis (Entry.time e') :=
    own_heartbeat_time (plat := .arduino) (t₀ := t₁) (h := g) (s := e'.post)
      ⟨_, _, _, .cons e'.op x' hst'⟩ hprop htick hn hq hqt
  have hfield : p.timeField = q.timeField := by
    simp only [Packet.timeField]
    rw [hc.2 0 (by decide) (by rw [hql]; decide), hc.2 1 (by decide) (by rw [hql]; decide),
      hc.2 2 (by decide) (by rw [hql]; decide), hc.2 3 (by decide) (by rw [hql]; decide)]
  have hoffm := st.master_clock hr0 he'
  -- the receiver
  obtain ⟨t₂, rand₂, ju₂, ju₂', y⟩ := inv.exec i
  have hh := st.hist i
  rw [hsplit, List.append_assoc, List.cons_append] at hh
  simp only at y
  rw [hh] at y
  obtain ⟨y1, y2, y3⟩ := exec_split y
  have wf := y1.wf .init
  have hoff : (net.node i).millisOffset = e.post.millisOffset :=
    offset_exec (Node.step_wf wf y2) y3 fun a ha hc => hlast a ha
      (let ⟨_, p, h1, h2⟩ := hc; ⟨p, h1, .inl h2⟩)
  have hslave := (st.roles i e hin).1
  rw [roleIn, if_neg hi] at hslave
  have hoff' : e.post.millisOffset = p.timeField - Entry.time e := by
    obtain ⟨pre, op, post⟩ := e
    cases op with
    | radioTick now rx =>
      rw [heard_tick wf] at hp
      exact slave_sync wf hp hslave hpt y2
    | _ => cases hp
  refine ⟨⟨htick, hn, q, hq, hqt⟩, fun δ => ?_⟩
  rw [Node.getNetworkMillis, Node.getNetworkMillis, hoff, hoff', hfield, htime, hoffm,
    Node.getNetworkMillis]
  exact clock_sum _ _ _ _

/-- C111.  In a settled network the clock of every slave is the master's, up to the time the last
heartbeat it heard was on the way. -/
theorem settled_clock {n nbrs} {net₀ net : HwNet n} (hr : HwNet.Reach nbrs net₀) {m : Fin n}
    (hself : m ∉ nbrs m) (hm : HwNet.SoleMaster net₀ m)
    (hs : HwNet.Steps nbrs { net₀ with air := [] } net)
    (hreg : ∀ i, i ≠ m → KeepsHearing net₀ net i) {i} (hi : i ≠ m) {h₁ e h₂}
    (hsplit : since net₀ net i = h₁ ++ e :: h₂) (hh : Entry.HeardMaster e)
    (hlast : ∀ a ∈ h₁, ¬ Entry.HeardMaster a) :
    ∃ e' ∈ since net₀ net m, Entry.OwnHeartbeat e' ∧
      ∀ δ, (net.node i).getNetworkMillis (Entry.time e + δ) =
        (net.node m).getNetworkMillis (Entry.time e' + δ) := by
  have st := settled hr hself hm hs hreg
  have hr0 := reach_cleared hr hs
  have hin : e ∈ since net₀ net i := by rw [hsplit]; simp
  obtain ⟨p, hp, hpt, e', he', q, hq, hn, hqt, hql, hc⟩ := settled_origin hr0 st hin hh
  exact ⟨e', he', settled_clock_from hr0 st hi hsplit hlast hp hpt he' hq hn hqt hql hc⟩

/-- C112.  In a settled network the last instruction a slave heard is the one the master followed
when it sent it, or one given locally to a neighbour; it has a payload. -/
theorem settled_instruction {n nbrs} {net₀ net : HwNet n} (hr : HwNet.Reach nbrs net₀) {m : Fin n}
    (hself : m ∉ nbrs m) (hm : HwNet.SoleMaster net₀ m)
    (hs : HwNet.Steps nbrs { net₀ with air := [] } net)
    (hreg : ∀ i, i ≠ m → KeepsHearing net₀ net i) {i} (hi : i ≠ m) {h₁ e h₂}
    (hsplit : since net₀ net i = h₁ ++ e :: h₂)
    {p} (hp : Entry.heard e = some p) (hpi : IsInstruction p) (hlast : ∀ a ∈ h₁, Untold a) :
    ∃ j, i ∈ nbrs j ∧ ∃ e' ∈ since net₀ net j,
      Carries (net.node i).getSetEffect e'.post.getSetEffect ∧ e'.post.getSetEffect.len ≠ 0 ∧
      (j = m ∨ ∃ now q, e'.op = .setEffect now q) := by
  have st := settled hr hself hm hs hreg
  have hr0 := reach_cleared hr hs
  have inv := hwInv_reach hr0
  have hin : e ∈ since net₀ net i := by rw [hsplit]; simp
  obtain ⟨j, f, hj, hf, hd⟩ := st.heard i e hin p hp
  obtain ⟨e', he', q, hq, hsend⟩ := st.air j f hf
  obtain ⟨h3, -, hc⟩ := decodes_sent hsend hd
  -- the receiver
  obtain ⟨t₂, rand₂, ju₂, ju₂', y⟩ := inv.exec i
  have hh := st.hist i
  rw [hsplit, List.append_assoc, List.cons_append] at hh
  simp only at y
  rw [hh] at y
  obtain ⟨y1, y2, y3⟩ := exec_split y
  have wf := y1.wf .init
  have hslave := (st.roles i e hin).1
  rw [roleIn, if_neg hi] at hslave
  have hkeep : (net.node i).getSetEffect = p := by
    rw [Node.getSetEffect, slave_untold (Node.step_wf wf y2) y3 (fun a ha => ?_) hlast]
    · exact slave_takes wf y2 hslave hp hpi
    · have := (st.roles i a (by rw [hsplit]; exact List.mem_append_left _ ha)).1
      rwa [roleIn, if_neg hi] at this
  -- the sender
  have hinj : e' ∈ net.hist j := by rw [st.hist j]; exact List.mem_append_left _ he'
  obtain ⟨t₁, rand₁, ju₁, ju₁', x⟩ := inv.exec j
  obtain ⟨g, x', wf', hst', hsub⟩ := exec_entry x .init hinj
  have hqi : IsInstruction q := by
    unfold IsInstruction at hpi ⊢; rw [← hc.1]; exact hpi
  refine ⟨j, hj, e', he', ?_⟩
  rw [hkeep]
  have hstate := (st.roles j e' he').1
  have hjm : e'.pre.state = .master → j = m := by
    intro h
    rw [h, roleIn] at hstate
    split at hstate
    · assumption
    · cases hstate
  have hq0 : q.len ≠ 0 := fun h => by rw [h] at h3; exact absurd h3 (by decide)
  have carry : ∀ c : Packet, SameContent c q → Carries p c ∧ c.len ≠ 0 := by
    intro c hcq
    exact ⟨⟨hc.1.trans hcq.1.symm, fun k hk hl => by
      rw [hc.2 k hk (hcq.2.1 ▸ hl), hcq.2.2]⟩, hcq.2.1 ▸ hq0⟩
  cases in_step wf' hst' with
  | keep _ _ _ _ _ _ _ htx => exact absurd hqi (htx q hq)
  | takeOver _ _ _ _ _ _ _ _ _ htx => exact absurd hqi (htx q hq)
  | locally p' hop _ _ _ _ _ _ htx =>
    have hq' : q ∈ [e'.post.setEffectPacket] := htx ▸ hq
    rw [List.mem_singleton.1 hq'] at carry
    exact ⟨(carry _ .refl).1, (carry _ .refl).2, .inr ⟨_, _, hop⟩⟩
  | slaveHeard p' hh' =>
    have := heard_transmits_empty wf' hst' hh' (inv.deaf j e' hinj p' hh') hq
    rw [this] at h3; exact absurd h3 (by decide)
  | masterHeard p' hh' =>
    have := heard_transmits_empty wf' hst' hh' (inv.deaf j e' hinj p' hh') hq
    rw [this] at h3; exact absurd h3 (by decide)
  | change r hf' hms =>
    have hq' : q ∈ [r] := hf'.sent ▸ hq
    rw [List.mem_singleton.1 hq'] at carry
    exact ⟨(carry _ hf'.adopted).1, (carry _ hf'.adopted).2, .inl (hjm hms)⟩
  | repeats r hf' hr' hms =>
    have hq' : q ∈ [r] := hf'.sent ▸ hq
    rw [List.mem_singleton.1 hq'] at carry
    have := carry _ (hf'.kept.trans ⟨hf'.same.1.symm, hf'.same.2.1.symm, hf'.same.2.2.symm⟩)
    exact ⟨this.1, this.2, .inl (hjm hms)⟩

namespace HwDemo

theorem act_steps {net net' base : HwNet 3} {i op} (hr : HwNet.Steps nbrs base net)
    (h : act net i op = some net')
    (hrx : ∀ now rx, op = .radioTick now rx → HwNet.CanRead nbrs net i now rx)
    (hproper : ∀ now p, op = .setEffect now p → p.type = .setEffect ∨ p.type = .setControl) :
    HwNet.Steps nbrs base net' := by
  unfold act at h
  split at h
  · cases h
  · rename_i s' hst
    split at h
    · cases h
    · rename_i fs hfs
      cases h
      exact .step hr (.act i op hrx hproper hst hfs)

/-- The middle device takes over, and the first hears of it. -/
def a₁ : HwNet 3 := (act net₀ 1 (.radioTick 8000 none)).getD net₀
def a₂ : HwNet 3 := (act a₁ 0 (readOp a₁ 8001 0)).getD net₀
/-- Everything sent so far has faded. -/
def b₀ : HwNet 3 := { a₂ with air := [] }
/-- The master sends a heartbeat, and the first device reads it. -/
def b₁ : HwNet 3 := (act b₀ 1 (.radioTick 9100 none)).getD net₀
def b₂ : HwNet 3 := (act b₁ 0 (readOp b₁ 9111 0)).getD net₀
/-- The master repeats its instruction, and the first device reads it. -/
def b₃ : HwNet 3 := (act b₂ 1 (.radioTick 10050 none)).getD net₀
def b₄ : HwNet 3 := (act b₃ 0 (readOp b₃ 10061 0)).getD net₀

theorem act_runs {net net' : HwNet 3} {i op}
    (hr : ∀ k, Firefly.Run .arduino 0 (net.hist k) (net.node k)) (h : act net i op = some net') :
    ∀ k, Firefly.Run .arduino 0 (net'.hist k) (net'.node k) := by
  unfold act at h
  split at h
  · cases h
  · rename_i s' hst
    split at h
    · cases h
    · cases h
      intro k
      by_cases hk : k = i
      · subst hk
        obtain ⟨r, ju, ju', x⟩ := hr k
        simp only [if_true]
        exact ⟨r, ju, ju', .cons op x hst⟩
      · simp only [if_neg hk]
        exact hr k

theorem a₂_reach : HwNet.Reach nbrs a₂ :=
  act_reach (act_reach reach₀ (net' := a₁) (some_getD (by decide +kernel)) (fun _ _ h => quiet h)
    (by rintro _ _ ⟨⟩)) (some_getD (by decide +kernel))
    (fun _ _ h => reads (k := 0) (j := 1) (f := [0, 13, 0, 0, 0, 31, 64]) (by decide +kernel)
      (by decide) h (by decide +kernel)) (by rintro _ _ ⟨⟩)

theorem b₄_steps : HwNet.Steps nbrs b₀ b₄ :=
  act_steps (act_steps (act_steps (act_steps .refl
    (net' := b₁) (some_getD (by decide +kernel)) (fun _ _ h => quiet h) (by rintro _ _ ⟨⟩))
    (net' := b₂) (some_getD (by decide +kernel))
    (fun _ _ h => reads (k := 0) (j := 1) (f := [0, 2, 0, 0, 0, 35, 140]) (by decide +kernel)
      (by decide) h (by decide +kernel)) (by rintro _ _ ⟨⟩))
    (net' := b₃) (some_getD (by decide +kernel)) (fun _ _ h => quiet h) (by rintro _ _ ⟨⟩))
    (net' := b₄) (some_getD (by decide +kernel))
    (fun _ _ h => reads (k := 0) (j := 1) (f := [0, 33, 2, 1, 0, 0]) (by decide +kernel)
      (by decide) h (by decide +kernel)) (by rintro _ _ ⟨⟩)

theorem b₄_runs : ∀ k, Firefly.Run .arduino 0 (b₄.hist k) (b₄.node k) := by
  have h0 : ∀ k, Firefly.Run .arduino 0 (net₀.hist k) (net₀.node k) := fun k => ⟨_, _, _, .nil⟩
  have h1 := act_runs h0 (net' := a₁) (some_getD (by decide +kernel))
  have h2 : ∀ k, Firefly.Run .arduino 0 (b₀.hist k) (b₀.node k) :=
    act_runs h1 (net' := a₂) (some_getD (by decide +kernel))
  have h3 := act_runs h2 (net' := b₁) (some_getD (by decide +kernel))
  have h4 := act_runs h3 (net' := b₂) (some_getD (by decide +kernel))
  have h5 := act_runs h4 (net' := b₃) (some_getD (by decide +kernel))
  exact act_runs h5 (net' := b₄) (some_getD (by decide +kernel))

instance (e : Entry) : Decidable (Entry.HeardMaster e) := decExistsSome

/-- Executable form of the regularity in `KeepsHearing`. -/
def regular (old : List Entry) : List Entry → Bool
  | [] => true
  | e :: h => ((h ++ old).any fun a => decide ((Entry.time e).toNat ≤ (Entry.time a).toNat + 5000) &&
      decide (Entry.HeardMaster a)) && regular old h

theorem regular_sound {old : List Entry} {l} (h : regular old l = true) {h₁ e h₂}
    (hs : l = h₁ ++ e :: h₂) :
    ∃ t, Sign 0 (h₂ ++ old) t ∧ (Entry.time e).toNat ≤ t.toNat + 5000 := by
  induction l generalizing h₁ with
  | nil => simp at hs
  | cons a l ih =>
    rw [regular, Bool.and_eq_true, List.any_eq_true] at h
    obtain ⟨⟨x, hx, hc⟩, h⟩ := h
    cases h₁ with
    | nil =>
      cases hs
      simp only [Bool.and_eq_true, decide_eq_true_eq] at hc
      exact ⟨_, .inr ⟨x, hx, rfl, .inl hc.2⟩, hc.1⟩
    | cons b h₁ => cases hs; exact ih h rfl

theorem b₄_hearing (i : Fin 3) (hi : i ≠ 1) : KeepsHearing a₂ b₄ i := by
  have hc : i ≠ 1 → clockOk ((b₄.hist i).map Entry.time ++ [0]) = true ∧
      regular (a₂.hist i) (since a₂ b₄ i) = true := by
    revert i; decide +kernel
  obtain ⟨h1, h2⟩ := hc hi
  exact ⟨0, b₄_runs i, clock_of_check h1, fun _ _ _ hs => regular_sound h2 hs⟩

theorem a₂_master : HwNet.SoleMaster a₂ 1 := by
  have h : ∀ i : Fin 3, decide ((a₂.node i).state = .master) = decide (i = 1) := by decide +kernel
  intro i
  have := h i
  rwa [decide_eq_decide] at this

end HwDemo

open HwDemo in
/-- The hypotheses of `sole_master_stable`, `settled_clock` and `settled_instruction` are met: of
three devices in a row the middle one is master; the first hears a heartbeat and then an
instruction of it. -/
example : HwNet.Reach nbrs a₂ ∧ 1 ∉ nbrs 1 ∧ HwNet.SoleMaster a₂ 1 ∧
    HwNet.Steps nbrs { a₂ with air := [] } b₄ ∧ (∀ i, i ≠ 1 → KeepsHearing a₂ b₄ i) ∧
    (∃ e e', since a₂ b₄ 0 = [e, e'] ∧ Entry.HeardMaster e' ∧ ¬ Entry.HeardMaster e ∧
      ∃ p, Entry.heard e = some p ∧ IsInstruction p) ∧ (since a₂ b₄ 1).length = 2 := by
  refine ⟨a₂_reach, by decide, a₂_master, b₄_steps, b₄_hearing, ?_, by decide +kernel⟩
  have : (match since a₂ b₄ 0 with
    | [e, e'] => decide (Entry.HeardMaster e') && !decide (Entry.HeardMaster e) &&
        decide (∃ p, Entry.heard e = some p ∧ IsInstruction p)
    | _ => false) = true := by decide +kernel
  split at this
  · rename_i e e' hs
    simp only [Bool.and_eq_true, Bool.not_eq_true', decide_eq_true_eq, decide_eq_false_iff_not] at this
    exact ⟨e, e', hs, this.1.1, this.1.2, this.2⟩
  · cases this

end Firefly.Props
