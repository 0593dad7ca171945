import Verif.Spec.Timeline
import Verif.Props.Stability

/-! # Networks in real time -/

namespace Firefly.Props
open Spec

theorem steps_hist {n nbrs} {net₀ net : HwNet n} (hs : HwNet.Steps nbrs { net₀ with air := [] } net)
    (k : Fin n) : net.hist k = since net₀ net k ++ net₀.hist k := by
  induction hs with
  | refl => simp [since]
  | @step net net' hs h ih =>
    obtain ⟨i, op, _, _, _, _⟩ := h
    by_cases hk : k = i
    · subst hk
      rw [since_cons ih (if_pos rfl)]
      simp only [if_true, List.cons_append]
      rw [← ih]
    · rw [since_same (if_neg hk)]
      simp only [if_neg hk]
      exact ih

/-- What a step does to the histories. -/
theorem step_hist {n nbrs} {net net' : HwNet n} (h : HwNet.Step nbrs net net') :
    ∃ j op, (net'.hist j = ⟨net.node j, op, net'.node j⟩ :: net.hist j) ∧
      op.step .arduino (net.node j) = .ok (net'.node j) ∧
      ∀ i, i ≠ j → net'.hist i = net.hist i ∧ net'.node i = net.node i := by
  obtain ⟨j, op, _, _, hst, _⟩ := h
  exact ⟨j, op, by simp, by simpa using hst, fun i hi => ⟨if_neg hi, if_neg hi⟩⟩

/-- If every beat is followed by one at most `G` ms later, then in a period of `4 G + L` ms there are
four. -/
theorem four_beats {Beat : Nat → Prop} {h0 T' G L : Nat}
    (next : ∀ w, Beat w ∨ w = h0 → w + G < T' → ∃ w', Beat w' ∧ w < w' ∧ w' ≤ w + G)
    (h : h0 + (4 * G + L) < T') :
    ∃ a b c d, Beat a ∧ Beat b ∧ Beat c ∧ Beat d ∧ a < b ∧ b < c ∧ c < d ∧ d + L < T' ∧
      T' ≤ a + (4 * G + L) := by
  obtain ⟨a, ha, a1, a2⟩ := next h0 (.inr rfl) (by omega)
  obtain ⟨b, hb, b1, b2⟩ := next a (.inl ha) (by omega)
  obtain ⟨c, hc, c1, c2⟩ := next b (.inl hb) (by omega)
  obtain ⟨d, hd, d1, d2⟩ := next c (.inl hc) (by omega)
  have go : ∀ x, ∀ a b c d, T' - d = x → Beat a → Beat b → Beat c → Beat d → a < b → b < c → c < d →
      b ≤ a + G → c ≤ b + G → d ≤ c + G → d + L < T' →
      ∃ a b c d, Beat a ∧ Beat b ∧ Beat c ∧ Beat d ∧ a < b ∧ b < c ∧ c < d ∧ d + L < T' ∧
        T' ≤ a + (4 * G + L) := by
    intro x
    induction x using Nat.strongRecOn with
    | ind x ih =>
      intro a b c d hx ha hb hc hd h1 h2 h3 g1 g2 g3 hl
      by_cases he : d + G + L < T'
      · obtain ⟨d', hd', e1, e2⟩ := next d (.inl hd) (by omega)
        exact ih (T' - d') (by omega) b c d d' rfl hb hc hd hd' h2 h3 e1 g2 g3 e2 (by omega)
      · exact ⟨a, b, c, d, ha, hb, hc, hd, h1, h2, h3, hl, by omega⟩
  exact go _ a b c d rfl ha hb hc hd b1 c1 d1 b2 c2 d2 (by omega)

variable {n : Nat} {nbrs : Fin n → List (Fin n)} {on : Fin n → Nat} {boot : Fin n → U32}
  {net₀ : HwNet n} {net : Nat → HwNet n} {T : Nat → Nat} {N : Nat}

namespace Timeline

theorem steps (t : Timeline nbrs on boot net₀ net T N) {k : Nat} (hk : k ≤ N) :
    HwNet.Steps nbrs { net₀ with air := [] } (net k) := by
  induction k with
  | zero => rw [t.start]; exact .refl
  | succ k ih => exact .step (ih (by omega)) (t.step k hk)

theorem reach_at (t : Timeline nbrs on boot net₀ net T N) {k : Nat} (hk : k ≤ N) :
    HwNet.Reach nbrs { net k with air := (net k).air ++ net₀.air } :=
  reach_cleared t.reach (steps t hk)

theorem hist (t : Timeline nbrs on boot net₀ net T N) {k : Nat} (hk : k ≤ N) (i : Fin n) :
    (net k).hist i = since net₀ (net k) i ++ net₀.hist i :=
  steps_hist (steps t hk) i

theorem run_at (t : Timeline nbrs on boot net₀ net T N) {k : Nat} (hk : k ≤ N) (i : Fin n) :
    Run .arduino (boot i) ((net k).hist i) ((net k).node i) := by
  induction k with
  | zero => rw [t.start]; exact t.run i
  | succ k ih =>
    obtain ⟨j, op, h1, h2, h3⟩ := step_hist (t.step k hk)
    by_cases hi : i = j
    · subst hi
      rw [h1]
      obtain ⟨r, ju, ju', x⟩ := ih (by omega)
      exact ⟨r, ju, ju', .cons op x h2⟩
    · rw [(h3 i hi).1, (h3 i hi).2]; exact ih (by omega)

theorem clock_at (t : Timeline nbrs on boot net₀ net T N) (i : Fin n) :
    ∀ d k, k + d = N → Clock (boot i) ((net k).hist i) := by
  intro d
  induction d with
  | zero => intro k hk; rw [show k = N by omega]; exact t.clock i
  | succ d ih =>
    intro k hk
    have c := ih (k + 1) (by omega)
    obtain ⟨j, op, h1, h2, h3⟩ := step_hist (t.step k (by omega))
    by_cases hi : i = j
    · subst hi; rw [h1] at c; exact c.cons.1
    · rw [(h3 i hi).1] at c; exact c

theorem clocks (t : Timeline nbrs on boot net₀ net T N) {k : Nat} (hk : k ≤ N) (i : Fin n) :
    Clock (boot i) ((net k).hist i) := clock_at t i (N - k) k (by omega)

/-- A step adds an entry at its time. -/
theorem entry (t : Timeline nbrs on boot net₀ net T N) {k : Nat} (hk : k < N) {i e}
    (he : e ∈ since net₀ (net (k + 1)) i) : e ∈ since net₀ (net k) i ∨ wall on i e = T (k + 1) := by
  obtain ⟨j, op, h1, h2, h3⟩ := step_hist (t.step k hk)
  by_cases hi : i = j
  · subst hi
    rw [since_cons (hist t (by omega) i) h1] at he
    rcases List.mem_cons.1 he with rfl | he
    · exact .inr (t.time k hk i _ h1)
    · exact .inl he
  · rw [since_same (h3 i hi).1] at he; exact .inl he

/-- Entries are never later than the present. -/
theorem past (t : Timeline nbrs on boot net₀ net T N) {k : Nat} (hk : k ≤ N) {i e}
    (he : e ∈ since net₀ (net k) i) : wall on i e ≤ T k ∧ T 0 ≤ wall on i e := by
  induction k with
  | zero => rw [t.start] at he; simp [since] at he
  | succ k ih =>
    have := t.order k hk
    have h0 : ∀ k, k < N → T 0 ≤ T (k + 1) := by
      intro k
      induction k with
      | zero => exact fun h => t.order 0 h
      | succ k ih => exact fun h => Nat.le_trans (ih (by omega)) (t.order (k + 1) h)
    rcases entry t hk he with h | h
    · have := ih (by omega) h; omega
    · have := h0 k hk; omega

/-- The heartbeats of a master that is attentive are at most `1001 + D` ms apart. -/
theorem next_beat {m : Fin n} {D : Nat} (t : Timeline nbrs on boot net₀ net T N)
    (j : JustHeard m on boot net₀ (T 0)) (at_ : Attentive m on net₀ net T N D)
    {k : Nat} (hk : k < N) (st : Settled nbrs net₀ m (net k)) {b : Entry}
    (hb : b ∈ net₀.hist m) (hbw : T 0 ≤ wall on m b + 1000)
    (hb' : ∀ b' ∈ net₀.hist m, Entry.OwnHeartbeat b' → wall on m b' ≤ wall on m b) {w : Nat}
    (hw : (∃ e ∈ since net₀ (net k) m, Entry.OwnHeartbeat e ∧ wall on m e = w) ∨ w = wall on m b)
    (hT : w + (1001 + D) < T (k + 1)) :
    ∃ w', (∃ e ∈ since net₀ (net k) m, Entry.OwnHeartbeat e ∧ wall on m e = w') ∧ w < w' ∧
      w' ≤ w + (1001 + D) := by
  have hw0 : wall on m b ≤ w := by
    rcases hw with ⟨e, he, _, rfl⟩ | rfl
    · have := (past t (by omega) he).2
      have := j.past b hb
      omega
    · exact Nat.le_refl _
  obtain ⟨a, ha, hat, han, ha1, ha2⟩ := at_ (k + 1) hk (w + 1001) (by omega) (by omega)
  have ha : a ∈ since net₀ (net k) m := by
    rcases entry t hk ha with h | h
    · exact h
    · omega
  obtain ⟨h₁, h₂, hsp⟩ := List.append_of_mem ha
  have hh := hist t (k := k) (by omega) m
  rw [hsp, List.append_assoc, List.cons_append] at hh
  have r := run_at t (k := k) (by omega) m
  have c := clocks t (k := k) (by omega) m
  rw [hh] at r c
  obtain ⟨r', ju, ju', x⟩ := r
  obtain ⟨x1, x2, x3⟩ := exec_split x
  have ca : Clock (boot m) (a :: (h₂ ++ net₀.hist m)) := by
    have : ∀ h : List Entry, Clock (boot m) (h ++ a :: (h₂ ++ net₀.hist m)) →
        Clock (boot m) (a :: (h₂ ++ net₀.hist m)) := by
      intro h
      induction h with
      | nil => exact id
      | cons y h ih => exact fun c => ih c.cons.1
    exact this _ c
  have hle := ca.cons.2.2.2
  by_cases hold : ∀ e ∈ h₂ ++ net₀.hist m, Entry.OwnHeartbeat e →
      (Entry.time e).toNat + 1000 < (Entry.time a).toNat
  · -- the iteration itself sends one
    refine ⟨wall on m a, ⟨a, ha, ?_, rfl⟩, by omega, by omega⟩
    have hpu : ProperUse (h₂ ++ net₀.hist m) := by
      intro e he now p ho
      have := (hwInv_reach (reach_at t (k := k) (by omega))).proper m e
      simp only at this
      rw [hh] at this
      exact this (List.mem_append_right _ (List.mem_cons_of_mem _ he)) now p ho
    obtain ⟨now, rx, ho⟩ := hat
    have hs : a.pre.getCurrentState = .master := by
      show a.pre.state = _
      rw [(st.roles m a ha).1, roleIn, if_pos rfl]
    have wf := x1.wf .init
    obtain ⟨pre, op, post⟩ := a
    simp only at ho x2 x1 hs
    subst ho
    rw [heard_tick wf] at han
    obtain ⟨s', q, e1, _, e2, e3, _⟩ := master_heartbeat_due (plat := .arduino) (t₀ := boot m)
      (h := h₂ ++ net₀.hist m) ⟨r', ju, ju', x1⟩ ca.cons.1 hpu hs now rx (quiet_of_delivered han)
      hold
    have : post = s' := by
      have x2 : pre.radioTick .arduino now rx = .ok post := x2
      rw [e1] at x2; cases x2; rfl
    subst this
    exact ⟨⟨now, rx, rfl⟩, by rw [heard_tick wf]; exact han, q, by rw [e2]; simp, e3⟩
  · -- one was sent before
    have : ∃ e ∈ h₂ ++ net₀.hist m, Entry.OwnHeartbeat e ∧
        (Entry.time a).toNat ≤ (Entry.time e).toNat + 1000 :=
      Classical.byContradiction fun hno => hold fun e he ho =>
        Classical.byContradiction fun hlt => hno ⟨e, he, ho, by omega⟩
    obtain ⟨e, he, ho, hlt⟩ := this
    have hea := hle e he
    have hwe : w < wall on m e ∧ wall on m e ≤ w + (1001 + D) := by
      unfold wall at ha1 ha2 ⊢; omega
    refine ⟨wall on m e, ⟨e, ?_, ho, rfl⟩, hwe⟩
    rcases List.mem_append.1 he with he | he
    · rw [hsp]; simp [he]
    · have := hb' e he ho; omega

/-- All others keep hearing the master. -/
theorem hears {m : Fin n} {D L : Nat} (t : Timeline nbrs on boot net₀ net T N)
    (j : JustHeard m on boot net₀ (T 0)) (hself : m ∉ nbrs m) (at_ : Attentive m on net₀ net T N D)
    (one : ∀ i, i ≠ m → OneOfFour m i on net₀ net T N L) (hDL : 4 * (1001 + D) + L ≤ 5000)
    {k : Nat} (hk : k ≤ N) : ∀ i, i ≠ m → ∀ h₁ e h₂, since net₀ (net k) i = h₁ ++ e :: h₂ →
      ∃ u, Sign (boot i) (h₂ ++ net₀.hist i) u ∧ (Entry.time e).toNat ≤ u.toNat + 5000 := by
  induction k with
  | zero =>
    intro i _ h₁ e h₂ heq
    rw [t.start] at heq
    simp [since] at heq
  | succ k ih =>
    have ih := ih (by omega)
    have st := settled t.reach hself j.sole (steps t (k := k) (by omega))
      fun i hi => ⟨boot i, run_at t (by omega) i, clocks t (by omega) i, ih i hi⟩
    intro i hi
    obtain ⟨d, op, h1, h2, h3⟩ := step_hist (t.step k hk)
    have hn := hist t (k := k) (by omega) i
    have hsign := ih i hi
    by_cases hid : i = d
    · subst hid
      rw [since_cons hn h1]
      intro h₁ e h₂ heq
      match h₁, heq with
      | y :: h₁, heq =>
        simp only [List.cons_append, List.cons.injEq] at heq
        exact hsign h₁ e h₂ heq.2
      | [], heq =>
        simp only [List.nil_append, List.cons.injEq] at heq
        obtain ⟨rfl, rfl⟩ := heq
        have hT := t.time k hk i _ h1
        obtain ⟨b, hb, hbo, hb0, hb', hbi⟩ := j.beat
        by_cases hearly : T (k + 1) ≤ wall on m b + (4 * (1001 + D) + L)
        · obtain ⟨u, hu, hub⟩ := hbi i hi
          refine ⟨u, ?_, ?_⟩
          · rcases hu with h | ⟨e, he, h⟩
            · exact .inl h
            · exact .inr ⟨e, List.mem_append_right _ he, h⟩
          · unfold wall at hT hub hearly; omega
        · obtain ⟨wa, wb, wc, wd, ⟨a, ha, hao, rfl⟩, ⟨b', hb1, hb2, rfl⟩, ⟨c, hc, hco, rfl⟩,
            ⟨d, hd, hdo, rfl⟩, l1, l2, l3, l4, l5⟩ :=
            four_beats (L := L) (h0 := wall on m b) (T' := T (k + 1)) (G := 1001 + D)
              (Beat := fun w => ∃ e ∈ since net₀ (net k) m, Entry.OwnHeartbeat e ∧ wall on m e = w)
              (fun w hw hlt => next_beat t j at_ hk st hb hb0 hb' hw hlt) (by omega)
          have up : ∀ x, x ∈ since net₀ (net k) m → x ∈ since net₀ (net (k + 1)) m := by
            intro x hx
            by_cases hmi : m = i
            · exact absurd hmi.symm hi
            · rw [since_same (h3 m hmi).1]; exact hx
          obtain ⟨e, he, he1, he2, he3⟩ := one i hi (k + 1) hk a b' c d (up _ ha) (up _ hb1) (up _ hc)
            (up _ hd) hao hb2 hco hdo l1 l2 l3 l4
          have he : e ∈ since net₀ (net k) i := by
            rcases entry t hk he with h | h
            · exact h
            · omega
          refine ⟨Entry.time e, .inr ⟨e, List.mem_append_left _ he, rfl, .inl he1⟩, ?_⟩
          unfold wall at hT he2 l5; omega
    · rw [since_same (h3 i hid).1]
      exact hsign

theorem keeps {m : Fin n} {D L : Nat} (t : Timeline nbrs on boot net₀ net T N)
    (j : JustHeard m on boot net₀ (T 0)) (hself : m ∉ nbrs m) (at_ : Attentive m on net₀ net T N D)
    (one : ∀ i, i ≠ m → OneOfFour m i on net₀ net T N L) (hDL : 4 * (1001 + D) + L ≤ 5000)
    {k : Nat} (hk : k ≤ N) (i : Fin n) (hi : i ≠ m) : KeepsHearing net₀ (net k) i :=
  ⟨boot i, run_at t hk i, clocks t hk i, hears t j hself at_ one hDL hk i hi⟩

end Timeline
end Firefly.Props
