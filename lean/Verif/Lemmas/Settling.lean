import Verif.Spec.Settling
import Verif.Lemmas.Timeline
import Verif.Props.Recovery

/-! # Networks that settle -/

namespace Firefly.Props
open Spec

/-- Without a demotion a device that has turned master is master. -/
theorem masters_stay {s₀ h s} (x : Exec .arduino s₀ h s) (hp : ∃ e ∈ h, Entry.Promoted e)
    (hd : ∀ e ∈ h, ¬ Entry.Demoted e) : s.getCurrentState = .master := by
  induction x with
  | nil => obtain ⟨e, he, _⟩ := hp; cases he
  | @cons h s op s' x hst ih =>
    obtain ⟨e, he, hpe⟩ := hp
    rcases List.mem_cons.1 he with rfl | he
    · exact hpe.2
    · have h1 := ih ⟨e, he, hpe⟩ fun a ha => hd a (List.mem_cons_of_mem _ ha)
      cases hc : s'.getCurrentState with
      | master => rfl
      | slave => exact absurd ⟨h1, hc⟩ (hd _ List.mem_cons_self)

variable {n : Nat} {nbrs : Fin n → List (Fin n)} {on : Fin n → Nat} {boot : Fin n → U32}
  {net₀ : HwNet n} {net : Nat → HwNet n} {T : Nat → Nat} {N : Nat}

namespace Timeline

theorem since_at (t : Timeline nbrs on boot net₀ net T N) {k : Nat} (hk : k ≤ N) :
    Since nbrs net₀ (net k) := since_steps t.reach (steps t hk)

/-- What happened stays in the history. -/
theorem grows (t : Timeline nbrs on boot net₀ net T N) (i : Fin n) :
    ∀ d k, k + d ≤ N → ∃ h, since net₀ (net (k + d)) i = h ++ since net₀ (net k) i := by
  intro d
  induction d with
  | zero => exact fun k _ => ⟨[], rfl⟩
  | succ d ih =>
    intro k hk
    obtain ⟨h, hh⟩ := ih k (by omega)
    obtain ⟨j, op, h1, _, h3⟩ := step_hist (t.step (k + d) (by omega))
    by_cases hi : i = j
    · subst hi
      have := since_cons (hist t (k := k + d) (by omega) i) h1
      rw [hh, ← List.cons_append] at this
      exact ⟨_, this⟩
    · refine ⟨h, ?_⟩
      show since net₀ (net (k + d + 1)) i = _
      rw [since_same (h3 i hi).1, hh]

theorem grows_to (t : Timeline nbrs on boot net₀ net T N) (i : Fin n) {k : Nat} (hk : k ≤ N) :
    ∃ h, since net₀ (net N) i = h ++ since net₀ (net k) i := by
  have := grows t i (N - k) k (by omega)
  rwa [show k + (N - k) = N by omega] at this

/-- The only device that ever turned master is not demoted. -/
theorem not_demoted {m : Fin n} (t : Timeline nbrs on boot net₀ net T N) (hself : m ∉ nbrs m)
    {k : Nat} (hk : k ≤ N) (hnone : HwNet.Masterless net₀ (net k))
    (hno : ∀ i, i ≠ m → ∀ e ∈ since net₀ (net k) i, ¬ Entry.Promoted e) :
    ∀ e ∈ since net₀ (net k) m, ¬ Entry.Demoted e := by
  intro a ha hd
  have st := since_at t hk
  have hr := reach_at t hk
  have hin : a ∈ (net k).hist m := by rw [st.hist m]; exact List.mem_append_left _ ha
  obtain ⟨p, hp, hpt, -⟩ := (hw_demoted_only_by_heartbeat hr (i := m) hin hd.1).1 hd.2
  obtain ⟨j, f, hj, hf, hdec⟩ := st.heard m a ha p hp
  obtain ⟨b, hb, -, hm⟩ := st.heartbeat hr hf hdec hpt
  by_cases hjm : j = m
  · subst hjm; exact hself hj
  · rcases hnone j with h | h
    · have := ((slaves_stay (st.exec j) h (hno j hjm)).2 b hb).2
      rw [this] at hm; cases hm
    · rw [h] at hb; cases hb

/-- In the history of a device, what has a later time comes after. -/
theorem before (t : Timeline nbrs on boot net₀ net T N) {k : Nat} (hk : k ≤ N) {i : Fin n}
    {h₁ a h₂} (hsp : since net₀ (net k) i = h₁ ++ a :: h₂) {p} (hp : p ∈ since net₀ (net N) i)
    (hlt : wall on i p < wall on i a) : p ∈ h₂ := by
  obtain ⟨h, hh⟩ := grows_to t i hk
  rw [hsp] at hh
  have c := clocks t (Nat.le_refl N) i
  rw [hist t (Nat.le_refl N) i] at c
  rw [hh] at c hp
  have key : ∀ g : List Entry, p ∈ g → Clock (boot i) (g ++ (a :: (h₂ ++ net₀.hist i))) → False := by
    intro g
    induction g with
    | nil => intro h; cases h
    | cons y g ih =>
      intro hy c
      rcases List.mem_cons.1 hy with rfl | hy
      · have := c.cons.2.2.2 a (by simp)
        unfold wall at hlt
        omega
      · exact ih hy c.cons.1
  simp only [List.mem_append, List.mem_cons] at hp
  rcases hp with hp | hp | rfl | hp
  · exact (key (h ++ h₁) (by simp [hp]) (by simpa using c)).elim
  · exact (key (h ++ h₁) (by simp [hp]) (by simpa using c)).elim
  · omega
  · exact hp

/-- The heartbeats of a new master that is attentive are at most `1001 + D` ms apart. -/
theorem new_beat {m : Fin n} {D w₀ : Nat} (t : Timeline nbrs on boot net₀ net T N)
    (at_ : AttentiveFrom w₀ m on net₀ net T N D) {k : Nat} (hk : k < N)
    (hd : ∀ e ∈ since net₀ (net k) m, ¬ Entry.Demoted e)
    {p : Entry} (hp : p ∈ since net₀ (net N) m) (hpp : Entry.Promoted p) (hpw : wall on m p = w₀)
    {w : Nat} (hw : w₀ ≤ w) (hT : w + (1001 + D) < T (k + 1)) :
    ∃ w', (∃ e ∈ since net₀ (net k) m, Entry.OwnHeartbeat e ∧ wall on m e = w') ∧ w < w' ∧
      w' ≤ w + (1001 + D) := by
  obtain ⟨a, ha, hat, han, ha1, ha2⟩ := at_ (k + 1) hk (w + 1001) (by omega) (by omega)
  have ha : a ∈ since net₀ (net k) m := by
    rcases entry t hk ha with h | h
    · exact h
    · omega
  obtain ⟨h₁, h₂, hsp⟩ := List.append_of_mem ha
  have hbef : p ∈ h₂ := before t (by omega) hsp hp (by omega)
  have st := since_at t (k := k) (by omega)
  have xs := st.exec m
  rw [hsp] at xs
  obtain ⟨xs1, -, -⟩ := exec_split xs
  have hs : a.pre.getCurrentState = .master :=
    masters_stay xs1 ⟨p, hbef, hpp⟩ fun e he => hd e (by rw [hsp]; simp [he])
  have hh := hist t (k := k) (by omega) m
  rw [hsp, List.append_assoc, List.cons_append] at hh
  have r := run_at t (k := k) (by omega) m
  have c := clocks t (k := k) (by omega) m
  rw [hh] at r c
  obtain ⟨r', ju, ju', x⟩ := r
  obtain ⟨x1, x2, x3⟩ := exec_split x
  have ca := c.tail h₁
  have hle := ca.cons.2.2.2
  by_cases hold : ∀ e ∈ h₂ ++ net₀.hist m, Entry.OwnHeartbeat e →
      (Entry.time e).toNat + 1000 < (Entry.time a).toNat
  · refine ⟨wall on m a, ⟨a, ha, ?_, rfl⟩, by omega, by omega⟩
    have hpu : ProperUse (h₂ ++ net₀.hist m) := by
      intro e he now p ho
      have := (hwInv_reach (reach_at t (k := k) (by omega))).proper m e
      simp only at this
      rw [hh] at this
      exact this (List.mem_append_right _ (List.mem_cons_of_mem _ he)) now p ho
    obtain ⟨now, rx, ho⟩ := hat
    have wf := x1.wf .init
    obtain ⟨pre, op, post⟩ := a
    simp only at ho x2 x1 hs
    subst ho
    rw [heard_tick wf] at han
    obtain ⟨s', q, e1, _, e2, e3, _⟩ := master_heartbeat_due (plat := .arduino) (t₀ := boot m)
      (h := h₂ ++ net₀.hist m) ⟨r', ju, ju', x1⟩ ca.cons.1 hpu hs now rx (quiet_of_delivered han)
      hold
    have : post = s' := by
      have x2 : pre.radioTick .arduino now rx = .ok post := x2
      rw [e1] at x2; cases x2; rfl
    subst this
    exact ⟨⟨now, rx, rfl⟩, by rw [heard_tick wf]; exact han, q, by rw [e2]; simp, e3⟩
  · have : ∃ e ∈ h₂ ++ net₀.hist m, Entry.OwnHeartbeat e ∧
        (Entry.time a).toNat ≤ (Entry.time e).toNat + 1000 :=
      Classical.byContradiction fun hno => hold fun e he ho =>
        Classical.byContradiction fun hlt => hno ⟨e, he, ho, by omega⟩
    obtain ⟨e, he, ho, hlt⟩ := this
    have hea := hle e he
    have hwe : w < wall on m e ∧ wall on m e ≤ w + (1001 + D) := by
      unfold wall at ha1 ha2 ⊢; omega
    refine ⟨wall on m e, ⟨e, ?_, ho, rfl⟩, hwe⟩
    rcases List.mem_append.1 he with he | he
    · rw [hsp]; simp [he]
    · -- what came before is older than the promotion
      obtain ⟨g₁, g₂, hg⟩ := List.append_of_mem hbef
      have cp : Clock (boot m) (p :: (g₂ ++ net₀.hist m)) := by
        have := ca.cons.1
        rw [hg, List.append_assoc, List.cons_append] at this
        exact this.tail g₁
      have := cp.cons.2.2.2 e (by simp [he])
      unfold wall at hpw hwe
      omega

/-- Nobody but the first master ever turns master. -/
theorem nobody_else {m : Fin n} {D L G w : Nat} (t : Timeline nbrs on boot net₀ net T N)
    (hself : m ∉ nbrs m) (hnone : HwNet.Masterless net₀ (net N))
    (first : FirstMaster m on net₀ (net N) w G) (at_ : AttentiveFrom w m on net₀ net T N D)
    (intro_ : ∀ i, i ≠ m → Introduced i on boot net₀ (net N) w G)
    (touch : ∀ i, i ≠ m → InTouch m i on boot net₀ (net N) L) (hDL : 4 * (1001 + D) + L ≤ 5000)
    {k : Nat} (hk : k ≤ N) : ∀ i, i ≠ m → ∀ e ∈ since net₀ (net k) i, ¬ Entry.Promoted e := by
  obtain ⟨p, hp, hpp, hpw⟩ := first.turned
  induction k with
  | zero => intro i _ e he; rw [t.start] at he; simp [since] at he
  | succ k ih =>
    have ih := ih (by omega)
    have hnk : HwNet.Masterless net₀ (net k) := by
      intro j
      refine (hnone j).imp_right fun h => ?_
      obtain ⟨g, hg⟩ := grows_to t j (k := k) (by omega)
      rw [h] at hg
      exact (List.append_eq_nil_iff.1 hg.symm).2
    have hd := not_demoted t hself (by omega) hnk ih
    intro i hi e he hpe
    obtain ⟨d, op, h1, h2, h3⟩ := step_hist (t.step k hk)
    by_cases hid : i = d
    · subst hid
      rw [since_cons (hist t (by omega) i) h1] at he
      rcases List.mem_cons.1 he with he | he
      · obtain ⟨g, hg⟩ := grows_to t i hk
        rw [since_cons (hist t (by omega) i) h1, ← he] at hg
        have hT := t.time k hk i _ h1
        rw [← he] at hT
        have hG := first.alone i hi e (by rw [hg]; simp) hpe
        have rr := run_at t hk i
        have cc := clocks t hk i
        have hpu : ProperUse ((net (k + 1)).hist i) :=
          (hwInv_reach (reach_at t hk)).proper i
        rw [h1, ← he] at rr cc hpu
        rw [hist t (k := k) (by omega) i] at rr cc hpu
        have quiet := no_takeover_before_silence rr cc hpu hpe
        by_cases hearly : T (k + 1) ≤ w + (4 * (1001 + D) + L)
        · obtain ⟨u, hu, huw⟩ := intro_ i hi g e _ hg hG
          have := quiet u hu
          unfold wall at hT hG; omega
        · obtain ⟨wa, wb, wc, wd, ⟨-, a, ha, hao, rfl⟩, ⟨-, b, hb, hbo, rfl⟩, ⟨-, c, hc, hco, rfl⟩,
            ⟨-, d, hd', hdo, rfl⟩, l1, l2, l3, l4, l5⟩ :=
            four_beats (L := L) (h0 := w) (T' := T (k + 1)) (G := 1001 + D)
              (Beat := fun x => w ≤ x ∧
                ∃ e ∈ since net₀ (net k) m, Entry.OwnHeartbeat e ∧ wall on m e = x)
              (fun x hx hlt => by
                have hwx : w ≤ x := by rcases hx with h | h; exact h.1; omega
                obtain ⟨x', h1, h2, h3⟩ := new_beat t at_ hk hd hp hpp hpw hwx hlt
                exact ⟨x', ⟨by omega, h1⟩, h2, h3⟩) (by omega)
          obtain ⟨gm, hgm⟩ := grows_to t m (k := k) (by omega)
          have up : ∀ x, x ∈ since net₀ (net k) m → x ∈ since net₀ (net N) m :=
            fun x hx => by rw [hgm]; exact List.mem_append_right _ hx
          obtain ⟨u, hu, huw⟩ := touch i hi g e _ hg a b c d (up _ ha) (up _ hb) (up _ hc)
            (up _ hd') hao hbo hco hdo l1 l2 l3 (by omega)
          have := quiet u hu
          unfold wall at hT huw l5; omega
      · exact ih i hi e he hpe
    · rw [since_same (h3 i hid).1] at he
      exact ih i hi e he hpe

end Timeline
end Firefly.Props
