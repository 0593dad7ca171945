import Verif.Lemmas.Follow
import Verif.Lemmas.Settling

/-! # Networks in which one device leads from some time on -/

namespace Firefly.Props
open Spec

/-- Device `m` is master from `w` on, takes over nobody's clock, and all others that do anything are
slaves. -/
structure Leads {n} (nbrs : Fin n → List (Fin n)) (on : Fin n → Nat) (w : Nat) (net₀ : HwNet n)
    (m : Fin n) (net : HwNet n) : Prop where
  hist : ∀ i, net.hist i = since net₀ net i ++ net₀.hist i
  air : ∀ j f, (j, f) ∈ net.air → ∃ e ∈ since net₀ net j, ∃ q ∈ Entry.transmitted e,
    Hw.sendPacket q = .ok f
  heard : ∀ i, ∀ e ∈ since net₀ net i, ∀ p, Entry.heard e = some p →
    ∃ j f, i ∈ nbrs j ∧ (j, f) ∈ net.air ∧ Decodes f p
  others : ∀ i, i ≠ m → ∀ e ∈ since net₀ net i, e.pre.state = .slave ∧ e.post.state = .slave
  lead : ∀ e ∈ since net₀ net m, w < wall on m e → e.pre.state = .master ∧ e.post.state = .master
  deaf : ∀ e ∈ since net₀ net m, ¬ SyncStep e

/-- A heartbeat that arrives comes from the leader. -/
theorem Leads.heartbeat {n nbrs on w} {net₀ net : HwNet n} {m : Fin n}
    (hr : HwNet.Reach nbrs { net with air := net.air ++ net₀.air }) (st : Leads nbrs on w net₀ m net)
    {j f} (hf : (j, f) ∈ net.air) {p : Packet} (hd : Decodes f p) (ht : p.type = .heartbeat) :
    j = m ∧ ∃ e ∈ since net₀ net m, ∃ q ∈ Entry.transmitted e, Entry.heard e = none ∧
      q.type = .heartbeat ∧ q.len = 4 ∧ Carries p q := by
  obtain ⟨e', he', q, hq, hsend⟩ := st.air j f hf
  obtain ⟨h3, -, h4⟩ := decodes_sent hsend hd
  have inv0 := hwInv_reach hr
  have hin : e' ∈ net.hist j := by rw [st.hist j]; exact List.mem_append_left _ he'
  obtain ⟨t₂, rand₂, ju₂, ju₂', x₂⟩ := inv0.exec j
  obtain ⟨h', x', wf', hst', hsub⟩ := exec_entry x₂ .init hin
  have hprop : ProperUse h' := fun e he => inv0.proper j e (hsub e he)
  have hn : Entry.heard e' = none := by
    cases hh' : Entry.heard e' with
    | none => rfl
    | some p' =>
      have := heard_transmits_empty wf' hst' hh' (inv0.deaf j e' hin p' hh') hq
      rw [this] at h3; exact absurd h3 (by decide)
  obtain ⟨h5, h6⟩ := composed_heartbeat wf' (Run.instruction ⟨_, _, _, x'⟩ hprop)
    (fun now p ho => inv0.proper j e' hin now p ho) hst' hq hn (h4.1 ▸ ht)
  have hj : j = m := Classical.byContradiction fun hj => by
    simp only [Node.getCurrentState] at h5
    rw [(st.others j hj e' he').2] at h5; cases h5
  subst hj
  exact ⟨rfl, e', he', q, hq, hn, h4.1 ▸ ht, h6, h4⟩

theorem Leads.master_clock {n nbrs on w} {net₀ net : HwNet n} {m : Fin n}
    (hr : HwNet.Reach nbrs { net with air := net.air ++ net₀.air }) (st : Leads nbrs on w net₀ m net)
    {e} (he : e ∈ since net₀ net m) : (net.node m).millisOffset = e.pre.millisOffset := by
  obtain ⟨t₀, rand, ju, ju', x⟩ := (hwInv_reach hr).exec m
  obtain ⟨h₁, h₂, hs⟩ := List.append_of_mem he
  have hh := st.hist m
  rw [hs, List.append_assoc, List.cons_append] at hh
  simp only at x
  rw [hh] at x
  obtain ⟨x1, x2, x3⟩ := exec_split x
  have wf := x1.wf .init
  have wf' : e.post.WF := Node.step_wf wf x2
  rw [offset_exec wf' x3 fun a ha => st.deaf a (hs ▸ List.mem_append_left _ ha)]
  exact offset_step wf x2 (st.deaf e he)

/-- Every heartbeat that is heard is one the leader sent. -/
theorem Leads.origin {n nbrs on w} {net₀ net : HwNet n} {m : Fin n}
    (hr0 : HwNet.Reach nbrs { net with air := net.air ++ net₀.air }) (st : Leads nbrs on w net₀ m net)
    {i e} (hin : e ∈ since net₀ net i) (hh : Entry.HeardMaster e) :
    ∃ p, Entry.heard e = some p ∧ p.type = .heartbeat ∧ ∃ e' ∈ since net₀ net m,
      ∃ q ∈ Entry.transmitted e', Entry.heard e' = none ∧ q.type = .heartbeat ∧ q.len = 4 ∧
        Carries p q := by
  obtain ⟨p, hp, hpt⟩ := hh
  have hin' : e ∈ net.hist i := by rw [st.hist i]; exact List.mem_append_left _ hin
  have hpt : p.type = .heartbeat := by
    rcases hpt with h | h
    · exact h
    · exact absurd h (hw_claim_never_heard hr0 (i := i) hin' hp)
  obtain ⟨j, f, hj, hf, hd⟩ := st.heard i e hin p hp
  obtain ⟨rfl, e', he', q, hq, hn, hqt, hql, hc⟩ := st.heartbeat hr0 hf hd hpt
  exact ⟨p, hp, hpt, e', he', q, hq, hn, hqt, hql, hc⟩

/-- The clock of a slave that last heard the heartbeat the master sent in `e'`. -/
theorem Leads.clock_from {n nbrs on w} {net₀ net : HwNet n} {m : Fin n}
    (hr0 : HwNet.Reach nbrs { net with air := net.air ++ net₀.air }) (st : Leads nbrs on w net₀ m net)
    {i} (hi : i ≠ m) {h₁ e h₂} (hsplit : since net₀ net i = h₁ ++ e :: h₂)
    (hlast : ∀ a ∈ h₁, ¬ Entry.HeardMaster a) {p} (hp : Entry.heard e = some p)
    (hpt : p.type = .heartbeat) {e'} (he' : e' ∈ since net₀ net m) {q}
    (hq : q ∈ Entry.transmitted e') (hn : Entry.heard e' = none) (hqt : q.type = .heartbeat)
    (hql : q.len = 4) (hc : Carries p q) :
    Entry.OwnHeartbeat e' ∧ ∀ δ, (net.node i).getNetworkMillis (Entry.time e + δ) =
        (net.node m).getNetworkMillis (Entry.time e' + δ) := by
  have inv := hwInv_reach hr0
  have hin : e ∈ since net₀ net i := by rw [hsplit]; simp
  -- the sender
  have hinj : e' ∈ net.hist m := by rw [st.hist m]; exact List.mem_append_left _ he'
  obtain ⟨t₁, rand₁, ju₁, ju₁', x⟩ := inv.exec m
  obtain ⟨g, x', wf', hst', hsub⟩ := exec_entry x .init hinj
  have hprop : ProperUse g := fun e he => inv.proper m e (hsub e he)
  have htick : Entry.IsTick e' :=
    heartbeat_in_tick wf' hst' (inv.proper m e' hinj) hq hqt
  have htime : q.timeField = e'.pre.getNetworkMillis (Entry.time e') :=
    own_heartbeat_time (plat := .arduino) (t₀ := t₁) (h := g) (s := e'.post)
      ⟨_, _, _, .cons e'.op x' hst'⟩ hprop htick hn hq hqt
  have hfield : p.timeField = q.timeField := by
    simp only [Packet.timeField]
    rw [hc.2 0 (by decide) (by rw [hql]; decide), hc.2 1 (by decide) (by rw [hql]; decide),
      hc.2 2 (by decide) (by rw [hql]; decide), hc.2 3 (by decide) (by rw [hql]; decide)]
  have hoffm := st.master_clock hr0 he'
  -- the receiver
  obtain ⟨t₂, rand₂, ju₂, ju₂', y⟩ := inv.exec i
  have hh := st.hist i
  rw [hsplit, List.append_assoc, List.cons_append] at hh
  simp only at y
  rw [hh] at y
  obtain ⟨y1, y2, y3⟩ := exec_split y
  have wf := y1.wf .init
  have hoff : (net.node i).millisOffset = e.post.millisOffset :=
    offset_exec (Node.step_wf wf y2) y3 fun a ha hc => hlast a ha
      (let ⟨_, p, h1, h2⟩ := hc; ⟨p, h1, .inl h2⟩)
  have hslave := (st.others i hi e hin).1
  have hoff' : e.post.millisOffset = p.timeField - Entry.time e := by
    obtain ⟨pre, op, post⟩ := e
    cases op with
    | radioTick now rx =>
      rw [heard_tick wf] at hp
      exact slave_sync wf hp hslave hpt y2
    | _ => cases hp
  refine ⟨⟨htick, hn, q, hq, hqt⟩, fun δ => ?_⟩
  rw [Node.getNetworkMillis, Node.getNetworkMillis, hoff, hoff', hfield, htime, hoffm,
    Node.getNetworkMillis]
  exact clock_sum _ _ _ _

/-- Who sent an instruction that arrives if one device leads. -/
theorem Leads.sender {n nbrs on w} {net₀ net : HwNet n} {m : Fin n}
    (hr0 : HwNet.Reach nbrs { net with air := net.air ++ net₀.air }) (st : Leads nbrs on w net₀ m net)
    {j f} {e' : Entry} (he' : e' ∈ since net₀ net j) {q} (hq : q ∈ Entry.transmitted e')
    (hsend : Hw.sendPacket q = .ok f) {p} (hd : Decodes f p) (hpi : IsInstruction p) :
    Carries p e'.post.getSetEffect ∧ (j = m ∨ ∃ now q, e'.op = .setEffect now q) := by
  have inv := hwInv_reach hr0
  obtain ⟨h3, -, hc⟩ := decodes_sent hsend hd
  have hinj : e' ∈ net.hist j := by rw [st.hist j]; exact List.mem_append_left _ he'
  obtain ⟨t₁, rand₁, ju₁, ju₁', x⟩ := inv.exec j
  obtain ⟨g, x', wf', hst', hsub⟩ := exec_entry x .init hinj
  have hqi : IsInstruction q := by
    unfold IsInstruction at hpi ⊢; rw [← hc.1]; exact hpi
  have hjm : e'.pre.state = .master → j = m := fun h => Classical.byContradiction fun hj => by
    rw [(st.others j hj e' he').1] at h; cases h
  have carry : ∀ c : Packet, SameContent c q → Carries p c := by
    intro c hcq
    exact ⟨hc.1.trans hcq.1.symm, fun k hk hl => by
      rw [hc.2 k hk (hcq.2.1 ▸ hl), hcq.2.2]⟩
  cases in_step wf' hst' with
  | keep _ _ _ _ _ _ _ htx => exact absurd hqi (htx q hq)
  | takeOver _ _ _ _ _ _ _ _ _ htx => exact absurd hqi (htx q hq)
  | locally p' hop _ _ _ _ _ _ htx =>
    have hq' : q ∈ [e'.post.setEffectPacket] := htx ▸ hq
    rw [List.mem_singleton.1 hq'] at carry
    exact ⟨carry _ .refl, .inr ⟨_, _, hop⟩⟩
  | slaveHeard p' hh' =>
    have := heard_transmits_empty wf' hst' hh' (inv.deaf j e' hinj p' hh') hq
    rw [this] at h3; exact absurd h3 (by decide)
  | masterHeard p' hh' =>
    have := heard_transmits_empty wf' hst' hh' (inv.deaf j e' hinj p' hh') hq
    rw [this] at h3; exact absurd h3 (by decide)
  | change r hf' hms =>
    have hq' : q ∈ [r] := hf'.sent ▸ hq
    rw [List.mem_singleton.1 hq'] at carry
    exact ⟨carry _ hf'.adopted, .inl (hjm hms)⟩
  | repeats r hf' hr' hms =>
    have hq' : q ∈ [r] := hf'.sent ▸ hq
    rw [List.mem_singleton.1 hq'] at carry
    exact ⟨carry _ (hf'.kept.trans ⟨hf'.same.1.symm, hf'.same.2.1.symm, hf'.same.2.2.symm⟩),
      .inl (hjm hms)⟩

namespace Timeline

variable {n : Nat} {nbrs : Fin n → List (Fin n)} {on : Fin n → Nat} {boot : Fin n → U32}
  {net₀ : HwNet n} {net : Nat → HwNet n} {T : Nat → Nat} {N : Nat}

/-- After any time `y` an attentive leader repeats its instruction within `2003 + 3 D` ms. -/
theorem led_repeat {m : Fin n} {D w : Nat} (t : Timeline nbrs on boot net₀ net T N)
    (hp : ∀ e ∈ net₀.hist m, wall on m e ≤ T 0) (at_ : AttentiveFrom w m on net₀ net T N D)
    (hD : 2 * D ≤ 998) {k : Nat} (hk : k ≤ N) (st : Leads nbrs on w net₀ m (net k)) {y : Nat}
    (hy : T 0 ≤ y) (hw : w ≤ y) (hT : y + (2003 + 3 * D) < T k) :
    ∃ e ∈ since net₀ (net k) m, (∃ q, Repeats e q) ∧ y < wall on m e ∧
      wall on m e ≤ y + (2003 + 3 * D) := by
  refine Classical.byContradiction fun hno => ?_
  obtain ⟨a₁, m₁, k₁, n₁, l₁, u₁⟩ := at_ k hk (y + 2001) (by omega) (by omega)
  obtain ⟨a₂, m₂, k₂, n₂, l₂, u₂⟩ := at_ k hk (wall on m a₁ + 1) (by omega) (by omega)
  obtain ⟨a₃, m₃, k₃, n₃, l₃, u₃⟩ := at_ k hk (wall on m a₂ + 1) (by omega) (by omega)
  have hno : ∀ e ∈ since net₀ (net k) m, y < wall on m e → wall on m e ≤ y + (2003 + 3 * D) →
      ¬ ∃ q, Repeats e q := fun e h1 h2 h3 h4 => hno ⟨e, h1, h4, h2, h3⟩
  -- cut the history at the three iterations
  have c := clocks t hk m
  have hh := hist t hk m
  have r := run_at t hk m
  obtain ⟨g₃, r₃, s₃⟩ := List.append_of_mem m₃
  have c₃ : Clock (boot m) (g₃ ++ a₃ :: (r₃ ++ net₀.hist m)) := by
    rw [hh, s₃, List.append_assoc, List.cons_append] at c; exact c
  have o₃ := clock_ordered c₃
  have m₂' : a₂ ∈ r₃ := by
    rw [s₃] at m₂
    rcases List.mem_append.1 m₂ with h | h
    · have := o₃.1 _ h; unfold wall at *; omega
    · rcases List.mem_cons.1 h with rfl | h
      · omega
      · exact h
  obtain ⟨g₂, r₂, s₂⟩ := List.append_of_mem m₂'
  have c₂ : Clock (boot m) (g₂ ++ a₂ :: (r₂ ++ net₀.hist m)) := by
    have := o₃.2.2.cons.1; rw [s₂, List.append_assoc, List.cons_append] at this; exact this
  have o₂ := clock_ordered c₂
  have m₁' : a₁ ∈ r₂ := by
    rw [s₃, s₂] at m₁
    rcases List.mem_append.1 m₁ with h | h
    · have := o₃.1 _ h; unfold wall at *; omega
    · rcases List.mem_cons.1 h with rfl | h
      · omega
      · rcases List.mem_append.1 h with h | h
        · have := o₂.1 _ h; unfold wall at *; omega
        · rcases List.mem_cons.1 h with rfl | h
          · omega
          · exact h
  obtain ⟨g₁, r₁, s₁⟩ := List.append_of_mem m₁'
  have c₁ : Clock (boot m) (g₁ ++ a₁ :: (r₁ ++ net₀.hist m)) := by
    have := o₂.2.2.cons.1; rw [s₁, List.append_assoc, List.cons_append] at this; exact this
  have o₁ := clock_ordered c₁
  rw [hh, s₃, s₂, s₁] at r
  simp only [List.append_assoc, List.cons_append] at r
  obtain ⟨ra, ju, ju', x⟩ := r
  obtain ⟨x, st₃, -⟩ := exec_split x
  obtain ⟨x, st₂, x₂⟩ := exec_split x
  obtain ⟨x, st₁, x₁⟩ := exec_split x
  have wf₁ := x.wf .init
  -- all of it lies in the history
  have hsub : ∀ e ∈ a₁ :: a₂ :: a₃ :: (g₁ ++ g₂), e ∈ since net₀ (net k) m := by
    intro e he
    rw [s₃, s₂, s₁]
    simp only [List.mem_cons, List.mem_append] at he ⊢
    grind
  have hmaster : ∀ e ∈ since net₀ (net k) m, y < wall on m e →
      e.pre.state = .master ∧ e.post.state = .master := fun e he h => st.lead e he (by omega)
  have h255 : ∀ e ∈ since net₀ (net k) m, (Entry.time e).toNat + 255000 < 2 ^ 32 := by
    intro e he
    refine c.2 _ (List.mem_append_left _ (List.mem_map_of_mem ?_))
    rw [hh]; exact List.mem_append_left _ he
  have hbetween : ∀ e ∈ a₁ :: a₂ :: a₃ :: (g₁ ++ g₂),
      (Entry.time a₁).toNat ≤ (Entry.time e).toNat ∧ (Entry.time e).toNat ≤ (Entry.time a₃).toNat := by
    have o31 := o₃.2.1
    have o21 := o₂.2.1
    intro e he
    have h13 := o31 a₁ (by rw [s₂]; simp [m₁'])
    have h23 := o31 a₂ (by simp [m₂'])
    have h12 := o21 a₁ (by simp [m₁'])
    rcases List.mem_cons.1 he with rfl | he
    · omega
    rcases List.mem_cons.1 he with rfl | he
    · omega
    rcases List.mem_cons.1 he with rfl | he
    · omega
    rcases List.mem_append.1 he with he | he
    · exact ⟨o₁.1 e he, o31 e (by rw [s₂, s₁]; simp [he])⟩
    · have := o₂.1 e he
      exact ⟨by omega, o31 e (by rw [s₂]; simp [he])⟩
  have hlate : ∀ e ∈ a₁ :: a₂ :: a₃ :: (g₁ ++ g₂), y < wall on m e := fun e he => by
    have := (hbetween e he).1
    unfold wall at *; omega
  -- the repetition was due
  have hdue : a₁.pre.timers.broadcastEffect ≠ 0 ∧
      a₁.pre.timers.broadcastEffect < Entry.time a₁ := by
    have hpu : ProperUse (r₁ ++ net₀.hist m) := by
      intro e he now p ho
      refine (hwInv_reach (reach_at t hk)).proper m e ?_ now p ho
      show e ∈ (net k).hist m
      rw [hh, s₃, s₂, s₁]
      simp only [List.mem_append, List.mem_cons] at he ⊢
      grind
    obtain ⟨e, he, hm, heq⟩ := (bc_inv ⟨ra, ju, ju', x⟩ o₁.2.2.cons.1 hpu).master
      (hmaster a₁ (hsub a₁ (by simp)) (by omega)).1
    have hle : wall on m e ≤ y := by
      rcases List.mem_append.1 he with he' | he'
      · have hin : e ∈ since net₀ (net k) m := by
          rw [s₃, s₂, s₁]; simp [he']
        refine Classical.byContradiction fun hlt => ?_
        rcases hm with hm | hm
        · have := (hmaster e hin (by omega)).1
          have hm1 : e.pre.state = .slave := hm.1
          rw [hm1] at this; cases this
        · refine hno e hin (by omega) ?_ hm
          have := o₁.2.1 e he
          unfold wall at *; omega
      · have := hp e he'; omega
    refine ⟨fun h0 => ?_, BitVec.lt_def.2 ?_⟩
    · rw [h0] at heq; simp at heq
    · unfold wall at *; omega
  obtain ⟨e, he, hr⟩ := repeats_of_three wf₁ st₁ x₁ st₂ x₂ st₃
    (by
      intro e he
      simp only [List.mem_cons, List.not_mem_nil, or_false] at he
      rcases he with rfl | rfl | rfl
      · exact ⟨k₁, n₁⟩
      · exact ⟨k₂, n₂⟩
      · exact ⟨k₃, n₃⟩)
    (fun e he => ⟨(hmaster e (hsub e he) (hlate e he)).1, (hmaster e (hsub e he) (hlate e he)).2, h255 e (hsub e he),
      (hbetween e he).1⟩)
    (by
      intro e he
      simp only [List.mem_cons, List.not_mem_nil, or_false] at he
      rcases he with rfl | rfl <;> (unfold wall at *; omega)) hdue
  have hb := hbetween e he
  exact hno e (hsub e he) (by unfold wall at *; omega) (by unfold wall at *; omega) hr

/-- So in `K` times that period there are `K` repetitions. -/
theorem led_repeats {m : Fin n} {D w : Nat} (t : Timeline nbrs on boot net₀ net T N)
    (hp : ∀ e ∈ net₀.hist m, wall on m e ≤ T 0) (at_ : AttentiveFrom w m on net₀ net T N D)
    (hD : 2 * D ≤ 998) {k : Nat} (hk : k ≤ N) (st : Leads nbrs on w net₀ m (net k)) (K : Nat) {y : Nat}
    (hy : T 0 ≤ y) (hw : w ≤ y) (hT : y + K * (2003 + 3 * D) < T k) :
    ∃ bs : List Entry, bs.length = K ∧ (bs.Pairwise fun a b => wall on m a < wall on m b) ∧
      ∀ b ∈ bs, b ∈ since net₀ (net k) m ∧ (∃ q, Repeats b q) ∧ y < wall on m b ∧
        wall on m b ≤ y + K * (2003 + 3 * D) := by
  induction K generalizing y with
  | zero => exact ⟨[], rfl, .nil, by simp⟩
  | succ K ih =>
    rw [Nat.succ_mul] at hT ⊢
    obtain ⟨e, he, hr, h1, h2⟩ := led_repeat t hp at_ hD hk st hy hw (by omega)
    obtain ⟨bs, hl, hpw, hb⟩ := ih (y := wall on m e) (by omega) (by omega) (by omega)
    refine ⟨e :: bs, by simp [hl], List.pairwise_cons.2 ⟨fun b hbm => (hb b hbm).2.2.1, hpw⟩, ?_⟩
    intro b hbm
    rcases List.mem_cons.1 hbm with rfl | hbm
    · exact ⟨he, hr, h1, by omega⟩
    · obtain ⟨b1, b2, b3, b4⟩ := hb b hbm
      exact ⟨b1, b2, by omega, by omega⟩

/-- A first master leads from the moment it turned master. -/
theorem led {m : Fin n} {D L G w : Nat} (t : Timeline nbrs on boot net₀ net T N)
    (hself : m ∉ nbrs m) (hnone : HwNet.Masterless net₀ (net N))
    (first : FirstMaster m on net₀ (net N) w G) (at_ : AttentiveFrom w m on net₀ net T N D)
    (known : ∀ i, i ≠ m → Introduced i on boot net₀ (net N) w G)
    (touch : ∀ i, i ≠ m → InTouch m i on boot net₀ (net N) L) (hDL : 4 * (1001 + D) + L ≤ 5000)
    {k : Nat} (hk : k ≤ N) : Leads nbrs on w net₀ m (net k) := by
  have st := since_at t hk
  have hno := nobody_else t hself hnone first at_ known touch hDL hk
  obtain ⟨p, hp, hpp, hpw⟩ := first.turned
  have hnk : HwNet.Masterless net₀ (net k) := by
    intro j
    refine (hnone j).imp_right fun h => ?_
    obtain ⟨g, hg⟩ := grows_to t j hk
    rw [h] at hg
    exact (List.append_eq_nil_iff.1 hg.symm).2
  have hd := not_demoted t hself hk hnk hno
  have others : ∀ i, i ≠ m → ∀ e ∈ since net₀ (net k) i,
      e.pre.state = .slave ∧ e.post.state = .slave := by
    intro i hi e he
    rcases hnk i with h | h
    · exact (slaves_stay (st.exec i) h (hno i hi)).2 e he
    · rw [h] at he; cases he
  refine ⟨st.hist, st.air, st.heard, others, fun e he hw => ?_, fun e he hs => ?_⟩
  · obtain ⟨h₁, h₂, hsp⟩ := List.append_of_mem he
    have xs := st.exec m
    rw [hsp] at xs
    obtain ⟨xs1, -, -⟩ := exec_split xs
    have h1 : e.pre.state = .master := masters_stay xs1 ⟨p, before t hk hsp hp (by omega), hpp⟩
      fun a ha => hd a (by rw [hsp]; simp [ha])
    refine ⟨h1, ?_⟩
    cases h2 : e.post.state with
    | master => rfl
    | slave => exact absurd ⟨h1, h2⟩ (hd e he)
  · obtain ⟨-, q, hq, hqt⟩ := hs
    obtain ⟨j, f, hj, hf, hdec⟩ := st.heard m e he q hq
    obtain ⟨b, hb, -, hm⟩ := st.heartbeat (reach_at t hk) hf hdec hqt
    by_cases hjm : j = m
    · subst hjm; exact hself hj
    · have : b.post.state = .master := hm
      rw [(others j hjm b hb).2] at this; cases this

end Timeline

end Firefly.Props
