import Verif.Spec.Recovery
import Verif.Props.Stability

/-! # A lost master is replaced (C118) -/

set_option linter.unusedSimpArgs false

namespace Firefly.Props
open Firefly Spec

/-- What holds after any steps from a network whose earlier frames are gone. -/
structure Since {n} (nbrs : Fin n → List (Fin n)) (net₀ net : HwNet n) : Prop where
  hist : ∀ i, net.hist i = since net₀ net i ++ net₀.hist i
  exec : ∀ i, Exec .arduino (net₀.node i) (since net₀ net i) (net.node i)
  air : ∀ j f, (j, f) ∈ net.air → ∃ e ∈ since net₀ net j, ∃ q ∈ Entry.transmitted e,
    Hw.sendPacket q = .ok f
  heard : ∀ i, ∀ e ∈ since net₀ net i, ∀ p, Entry.heard e = some p →
    ∃ j f, i ∈ nbrs j ∧ (j, f) ∈ net.air ∧ Decodes f p

theorem since_steps {n nbrs} {net₀ net : HwNet n} (hr : HwNet.Reach nbrs net₀)
    (hs : HwNet.Steps nbrs { net₀ with air := [] } net) : Since nbrs net₀ net := by
  induction hs with
  | refl =>
    have h0 : ∀ i, since net₀ { net₀ with air := [] } i = [] := by
      intro i; simp [since]
    refine ⟨fun i => by rw [h0]; rfl, fun i => ?_, fun j f hf => (by cases hf), fun i e he => ?_⟩
    · rw [h0]; exact .nil
    · rw [h0] at he; cases he
  | @step net net' hs hstep st =>
    have inv0 := hwInv_reach (reach_cleared hr hs)
    obtain ⟨i, op, hrx, hproper, hst, hfs⟩ := hstep
    rename_i s' fs
    obtain ⟨t₁, rand, ju, ju', x⟩ := inv0.exec i
    have wf : (net.node i).WF := x.wf .init
    have hsi : since net₀ { node := fun k => if k = i then s' else net.node k
                            hist := fun k => if k = i then ⟨net.node i, op, s'⟩ :: net.hist i
                              else net.hist k
                            air := fs.map (i, ·) ++ net.air } i =
        ⟨net.node i, op, s'⟩ :: since net₀ net i := since_cons (st.hist i) (if_pos rfl)
    have hsk : ∀ k, k ≠ i →
        since net₀ { node := fun k => if k = i then s' else net.node k
                     hist := fun k => if k = i then ⟨net.node i, op, s'⟩ :: net.hist i
                       else net.hist k
                     air := fs.map (i, ·) ++ net.air } k = since net₀ net k :=
      fun k hk => since_same (if_neg hk)
    refine ⟨fun k => ?_, fun k => ?_, fun j f hf => ?_, fun k e he p hp => ?_⟩
    · by_cases hk : k = i
      · subst hk; rw [hsi]; simp only [if_true, List.cons_append]; rw [← st.hist k]
      · rw [hsk k hk]; simp only [if_neg hk]; exact st.hist k
    · by_cases hk : k = i
      · subst hk; rw [hsi]; simp only [if_true]; exact .cons op (st.exec k) hst
      · rw [hsk k hk]; simp only [if_neg hk]; exact st.exec k
    · rcases List.mem_append.1 hf with hf | hf
      · obtain ⟨g, hg, hgf⟩ := List.mem_map.1 hf
        cases hgf
        obtain ⟨q, hq, hsend⟩ := mapM_mem hfs hg
        rw [hsi]
        exact ⟨_, List.mem_cons_self, q, hq, hsend⟩
      · obtain ⟨e, he, q, hq, hsend⟩ := st.air j f hf
        refine ⟨e, ?_, q, hq, hsend⟩
        by_cases hk : j = i
        · subst hk; rw [hsi]; exact List.mem_cons_of_mem _ he
        · rw [hsk j hk]; exact he
    · have old : e ∈ since net₀ net k → ∃ j f, k ∈ nbrs j ∧ (j, f) ∈ fs.map (i, ·) ++ net.air ∧
          Decodes f p := by
        intro he
        obtain ⟨j, f, h1, h2, h3⟩ := st.heard k e he p hp
        exact ⟨j, f, h1, List.mem_append_right _ h2, h3⟩
      by_cases hk : k = i
      · subst hk
        rw [hsi] at he
        rcases List.mem_cons.1 he with rfl | he
        · cases op with
          | radioTick now rx =>
            have hrx' := heard_rx wf hp
            subst hrx'
            obtain ⟨l, _, hl, hair⟩ := hrx now _ rfl
            obtain ⟨f, hf, _, hdec⟩ := Board.Listen.packet_decodes hl
            obtain ⟨j, h1, h2⟩ := hair f hf
            exact ⟨j, f, h1, List.mem_append_right _ h2, hdec⟩
          | _ => cases hp
        · exact old he
      · rw [hsk k hk] at he
        exact old he

/-- A heartbeat on the air was composed by a device that is master then. -/
theorem Since.heartbeat {n nbrs} {net₀ net : HwNet n}
    (hr : HwNet.Reach nbrs { net with air := net.air ++ net₀.air }) (st : Since nbrs net₀ net)
    {j f} (hf : (j, f) ∈ net.air) {p : Packet} (hd : Decodes f p) (ht : p.type = .heartbeat) :
    ∃ e ∈ since net₀ net j, Entry.OwnHeartbeat e ∧ e.post.getCurrentState = .master := by
  obtain ⟨e', he', q, hq, hsend⟩ := st.air j f hf
  obtain ⟨h3, -, h4⟩ := decodes_sent hsend hd
  have inv0 := hwInv_reach hr
  have hin : e' ∈ net.hist j := by rw [st.hist j]; exact List.mem_append_left _ he'
  obtain ⟨t₂, rand₂, ju₂, ju₂', x₂⟩ := inv0.exec j
  obtain ⟨h', x', wf', hst', hsub⟩ := exec_entry x₂ .init hin
  have hprop : ProperUse h' := fun e he => inv0.proper j e (hsub e he)
  have hn : Entry.heard e' = none := by
    cases hh' : Entry.heard e' with
    | none => rfl
    | some p' =>
      have := heard_transmits_empty wf' hst' hh' (inv0.deaf j e' hin p' hh') hq
      rw [this] at h3; exact absurd h3 (by decide)
  have hty : q.type = .heartbeat := h4.1 ▸ ht
  obtain ⟨h5, h6⟩ := composed_heartbeat wf' (Run.instruction ⟨_, _, _, x'⟩ hprop)
    (fun now p ho => inv0.proper j e' hin now p ho) hst' hq hn hty
  exact ⟨e', he', ⟨heartbeat_in_tick wf' hst' (inv0.proper j e' hin) hq hty, hn, q, hq, hty⟩, h5⟩

/-- Without a promotion slaves stay slaves. -/
theorem slaves_stay {s₀ h s} (x : Exec .arduino s₀ h s) (h0 : s₀.getCurrentState = .slave)
    (hp : ∀ e ∈ h, ¬ Entry.Promoted e) :
    s.getCurrentState = .slave ∧
      ∀ e ∈ h, e.pre.getCurrentState = .slave ∧ e.post.getCurrentState = .slave := by
  induction x with
  | nil => exact ⟨h0, by simp⟩
  | @cons h s op s' x hst ih =>
    obtain ⟨h1, h2⟩ := ih fun e he => hp e (List.mem_cons_of_mem _ he)
    have h3 : s'.getCurrentState = .slave := by
      cases hc : s'.getCurrentState with
      | slave => rfl
      | master => exact absurd ⟨h1, hc⟩ (hp _ List.mem_cons_self)
    refine ⟨h3, ?_⟩
    simp only [List.mem_cons]
    rintro e (rfl | he)
    · exact ⟨h1, h3⟩
    · exact h2 e he

theorem _root_.Firefly.Spec.Clock.tail {t₀ h₂} (h₁) (c : Clock t₀ (h₁ ++ h₂)) : Clock t₀ h₂ := by
  induction h₁ with
  | nil => exact c
  | cons _ _ ih => exact ih c.cons.1

/-- C118.  When no master is running any more and everything it sent is gone, a new one emerges in
time, whatever the topology, the schedule and the losses: by the time some device, 7000 ms after
the last sign of a master it had, listens and hears nothing new, some device (this one or another)
has turned master. -/
theorem lost_master_replaced {n nbrs} {net₀ net : HwNet n} (hr : HwNet.Reach nbrs net₀)
    (hnone : HwNet.Masterless net₀ net) (hs : HwNet.Steps nbrs { net₀ with air := [] } net)
    {i t₀} (r : Firefly.Run .arduino t₀ (net.hist i) (net.node i)) (c : Clock t₀ (net.hist i))
    {h₁ e h₂} (hsplit : since net₀ net i = h₁ ++ e :: h₂) (htick : Entry.IsTick e)
    (hquiet : Entry.heard e = none)
    (hlate : ∀ t, Sign t₀ (net₀.hist i) t → t.toNat + 7000 ≤ (Entry.time e).toNat) :
    ∃ j, ∃ a ∈ since net₀ net j, Entry.Promoted a := by
  apply Classical.byContradiction
  intro hno
  have hno : ∀ j, ∀ a ∈ since net₀ net j, ¬ Entry.Promoted a :=
    fun j a ha hp => hno ⟨j, a, ha, hp⟩
  have st := since_steps hr hs
  have hr' := reach_cleared hr hs
  have slaves : ∀ j, ∀ a ∈ since net₀ net j,
      a.pre.getCurrentState = .slave ∧ a.post.getCurrentState = .slave := by
    intro j
    rcases hnone j with h | h
    · exact (slaves_stay (st.exec j) h (hno j)).2
    · rw [h]; simp
  have nosign : ∀ a ∈ since net₀ net i, ¬ (Entry.HeardMaster a ∨ Entry.Demoted a) := by
    intro a ha hor
    rcases hor with ⟨p, hp, ht⟩ | hd
    · obtain ⟨j, f, -, hf, hdec⟩ := st.heard i a ha p hp
      have hin : a ∈ net.hist i := by rw [st.hist i]; exact List.mem_append_left _ ha
      rcases ht with ht | ht
      · obtain ⟨b, hb, -, hm⟩ := st.heartbeat hr' hf hdec ht
        rw [(slaves j b hb).2] at hm; cases hm
      · exact hw_claim_never_heard hr' (i := i) hin hp ht
    · rw [Entry.Demoted, (slaves i a ha).1] at hd; cases hd.1
  -- the run up to the step
  have hh : net.hist i = h₁ ++ e :: (h₂ ++ net₀.hist i) := by
    rw [st.hist i, hsplit]; simp
  have hpu := (hwInv_reach hr').proper i
  simp only at hpu
  rw [hh] at r c hpu
  obtain ⟨rand, ju, ju', x⟩ := r
  obtain ⟨x1, x2, x3⟩ := exec_split x
  have wf := x1.wf .init
  have c' := c.tail h₁
  have hpu' : ProperUse (h₂ ++ net₀.hist i) :=
    fun a ha => hpu a (by simp only [List.mem_append, List.mem_cons] at ha ⊢; simp [ha])
  have hin : e ∈ since net₀ net i := by rw [hsplit]; simp
  have hsil : ∀ t, Sign t₀ (h₂ ++ net₀.hist i) t → t.toNat + 7000 ≤ (Entry.time e).toNat := by
    rintro t (rfl | ⟨a, ha, hat, hsign⟩)
    · exact hlate _ (.inl rfl)
    · rcases List.mem_append.1 ha with ha | ha
      · exact absurd hsign (nosign a (by rw [hsplit]; simp [ha]))
      · exact hlate t (.inr ⟨a, ha, hat, hsign⟩)
  obtain ⟨now, rx, hop⟩ := htick
  obtain ⟨pre, op, post⟩ := e
  cases hop
  have hq : Quiet pre rx := quiet_of_delivered (by rw [← heard_tick (s' := post) (now := now) wf]; exact hquiet)
  obtain ⟨s', q, k1, k2, -⟩ := takeover_after_silence ⟨_, _, _, x1⟩ c'.cons.1 hpu' (slaves i _ hin).1
    now rx hq hsil
  have k3 : pre.radioTick .arduino now rx = .ok post := x2
  rw [k1] at k3
  cases k3
  have := (slaves i _ hin).2
  rw [k2] at this; cases this

namespace HwDemo

/-- The master dies, and 7 s after its heartbeat the first device listens. -/
def c₁ : HwNet 3 := (act b₀ 0 (.radioTick 15100 none)).getD net₀

theorem c₁_steps : HwNet.Steps nbrs b₀ c₁ :=
  act_steps .refl (net' := c₁) (some_getD (by decide +kernel)) (fun _ _ h => quiet h)
    (by rintro _ _ ⟨⟩)

theorem c₁_runs : ∀ k, Firefly.Run .arduino 0 (c₁.hist k) (c₁.node k) := by
  have h0 : ∀ k, Firefly.Run .arduino 0 (net₀.hist k) (net₀.node k) := fun k => ⟨_, _, _, .nil⟩
  have h1 := act_runs h0 (net' := a₁) (some_getD (by decide +kernel))
  have h2 : ∀ k, Firefly.Run .arduino 0 (b₀.hist k) (b₀.node k) :=
    act_runs h1 (net' := a₂) (some_getD (by decide +kernel))
  exact act_runs h2 (net' := c₁) (some_getD (by decide +kernel))

end HwDemo

open HwDemo in
/-- The hypotheses are met: the middle of three devices is master and dies; the first device, which
heard its heartbeat at 8001, listens at 15100. -/
example : HwNet.Reach nbrs a₂ ∧ (a₂.node 1).getCurrentState = .master ∧
    HwNet.Masterless a₂ c₁ ∧ HwNet.Steps nbrs { a₂ with air := [] } c₁ ∧
    Firefly.Run .arduino 0 (c₁.hist 0) (c₁.node 0) ∧ Clock 0 (c₁.hist 0) ∧
    (∃ e, since a₂ c₁ 0 = [e] ∧ Entry.IsTick e ∧ Entry.heard e = none ∧ Entry.time e = 15100) ∧
    ∀ t, Sign 0 (a₂.hist 0) t → t.toNat + 7000 ≤ 15100 := by
  have hm : ∀ j : Fin 3, (a₂.node j).getCurrentState = .slave ∨ (since a₂ c₁ j).isEmpty = true := by
    decide +kernel
  refine ⟨a₂_reach, by decide +kernel, fun j => (hm j).imp_right List.isEmpty_iff.1, c₁_steps,
    c₁_runs 0, clock_of_check (by decide +kernel), ⟨_, rfl, ⟨_, _, rfl⟩, by decide +kernel, rfl⟩, ?_⟩
  have h : ((a₂.hist 0).all fun e => decide ((Entry.time e).toNat + 7000 ≤ 15100)) = true := by
    decide +kernel
  rintro t (rfl | ⟨a, ha, rfl, -⟩)
  · decide
  · simpa using List.all_eq_true.1 h a ha

end Firefly.Props
