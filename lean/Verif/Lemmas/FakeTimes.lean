import Verif.Lemmas.FakeSoon
import Verif.Props.FakeAgree

/-! # The timetable of the master of the test network -/

namespace Firefly
open Spec FakeNet

section
variable {n : Nat} {net : Nat → FakeNet n} {d : Nat → U32} {N : Nat}

theorem FakeNet.Beat.armed {net net' : FakeNet n} {A t m T0} (b : Beat net net' A t m)
    (h : Armed T0 (net.node A).timers) (ht : t < T0 + 1000) : Armed T0 (net'.node A).timers := by
  have f := b.fires
  obtain ⟨h1, h2, h3⟩ := h
  suffices (net'.node A).timers.heartbeat.toNat = T0 + 1000 ∧
      (net'.node A).timers.broadcastEffect.toNat = T0 + 2000 ∧
      T0 + 2000 ≤ (net'.node A).timers.changeEffect.toNat from ⟨this.1, this.2.1, this.2.2⟩
  generalize (net'.node A).timers.broadcastEffect.toNat = b' at *
  generalize (net'.node A).timers.heartbeat.toNat = h' at *
  generalize (net'.node A).timers.changeEffect.toNat = c' at *
  cases f <;> omega

theorem FakeNet.Fires.repeats {t H c b H' c' b' m T p t'} (f : Fires t H c b H' c' b' m)
    (e : t' = t + 1) (h1 : b = T + 2000 + 2001 * p) (h2 : t ≤ T + 2000 + 2001 * p)
    (h3 : T + 2001 * p ≤ t) {r : Nat} (h4 : H = T + 1000 + 1001 * r) (h5 : t ≤ 2000000) :
    ∃ p, b' = T + 2000 + 2001 * p ∧ t' ≤ T + 2000 + 2001 * p ∧ T + 2001 * p ≤ t' := by
  cases f with
  | none | beat | change | beatChange => exact ⟨p, h1, by omega, by omega⟩
  | «repeat» | beatRepeat | changeRepeat => exact ⟨p + 1, by omega, by omega, by omega⟩

/-- The timers of the master, `n` `Tick`s after the first one appeared. -/
theorem Spec.Course.armed (c : Course net d N) (hn : n ≤ 99) {k₀ : Nat} (hk : k₀ + n ≤ N)
    (hm : (net k₀).getNumMasters ≠ 0) (hm' : ∀ j < k₀, (net j).getNumMasters = 0) :
    ∃ A, ((net (k₀ + n)).node A).state = .master ∧
      Armed (net k₀).now.toNat ((net (k₀ + n)).node A).timers := by
  obtain ⟨A, st, h5, _, h50⟩ := c.appears hn (k := k₀) (by omega) hm hm'
  have hpos : 0 < n := A.pos
  have key : ∀ j, j + 1 ≤ n → (net (k₀ + 1 + j)).now.toNat = (net k₀).now.toNat + 1 + j ∧
    ((∃ A x, Contest (net (k₀ + 1 + j)) (net k₀).now.toNat A x ∧
      waits (fun i => ((net (k₀ + 1 + j)).radio i).sent) A +
        (if (net (k₀ + 1 + j)).packet.isSome then 1 else 0) + 1 + j ≤ n) ∨
     ∃ A, Stable (net (k₀ + 1 + j)) A (net (k₀ + 1 + j)).now.toNat ∧
      Armed (net k₀).now.toNat ((net (k₀ + 1 + j)).node A).timers) := by
    intro j
    induction j with
    | zero =>
      intro _
      have r := c.round (k := k₀) (by omega) st.loss
      have hs := c.slow (k := k₀) (by omega) hm
      have st' : Start ((net k₀).advanceMillis (d k₀)) (net k₀).now.toNat A :=
        ⟨st.1, st.2, st.3, st.4, st.5, st.6, st.7⟩
      obtain ⟨x, h1, h2⟩ := st'.tick r hs (by omega) (c.fresh k₀ (by omega))
      exact ⟨by show (net (k₀ + 1)).now.toNat = _; rw [r.now, hs], .inl ⟨A, x, h1, h2⟩⟩
    | succ j ih =>
      intro hjn
      obtain ⟨h1, h2⟩ := ih (by omega)
      have hkj : k₀ + 1 + (j + 1) = k₀ + 1 + j + 1 := by omega
      rw [hkj]
      have go : ∀ B, Stable (net (k₀ + 1 + j)) B (net (k₀ + 1 + j)).now.toNat →
          Armed (net k₀).now.toNat ((net (k₀ + 1 + j)).node B).timers →
          (net (k₀ + 1 + j + 1)).now.toNat = (net k₀).now.toNat + 1 + (j + 1) ∧
          Stable (net (k₀ + 1 + j + 1)) B (net (k₀ + 1 + j + 1)).now.toNat ∧
          Armed (net k₀).now.toNat ((net (k₀ + 1 + j + 1)).node B).timers := by
        intro B hst ha
        obtain ⟨e, m, b, _⟩ := c.beat hn (k := k₀ + 1 + j) (by omega) hst
        exact ⟨by rw [e]; omega, Stable.later (c := c) hn (by omega) hst,
          b.armed (T0 := (net k₀).now.toNat) ha (by omega)⟩
      rcases h2 with ⟨B, x, h2, h3⟩ | ⟨B, h2, ha⟩
      · by_cases hz : waits (fun i => ((net (k₀ + 1 + j)).radio i).sent) B +
            (if (net (k₀ + 1 + j)).packet.isSome then 1 else 0) = 0
        · obtain ⟨g1, g2⟩ := go B (h2.stable (h2.sole hz) hn (by omega) (by omega) (by omega))
            (h2.timers B h2.master)
          exact ⟨g1, .inr ⟨B, g2⟩⟩
        · have hm2 : (net (k₀ + 1 + j)).getNumMasters ≠ 0 := fun e =>
            getNumMasters_zero.1 e B h2.master
          have hs := c.slow (k := k₀ + 1 + j) (by omega) hm2
          have r := c.round (k := k₀ + 1 + j) (by omega) h2.loss
          have hnow : (net (k₀ + 1 + j + 1)).now.toNat = (net k₀).now.toNat + 1 + (j + 1) := by
            rw [r.now, hs]; omega
          refine ⟨hnow, ?_⟩
          have h2' : Contest ((net (k₀ + 1 + j)).advanceMillis (d (k₀ + 1 + j)))
              (net k₀).now.toNat B x :=
            ⟨h2.1, h2.2, h2.3, h2.4, h2.5, h2.6, h2.7, h2.8, h2.9, h2.10⟩
          rcases h2'.tick r (by omega) (by omega) (by omega) with ⟨g1, g2⟩ | ⟨B', y, g1, g2⟩
          · have hp : (net (k₀ + 1 + j)).packet.isSome = true := by
              cases hp : (net (k₀ + 1 + j)).packet with
              | some _ => rfl
              | none =>
                refine absurd ?_ hz
                rw [hp, waits_zero (h2.idle hp)]; rfl
            rw [hp] at h3
            refine .inl ⟨B, x, g1, ?_⟩
            have e : waits (fun i =>
                (((net (k₀ + 1 + j)).advanceMillis (d (k₀ + 1 + j))).radio i).sent) B
              = waits (fun i => ((net (k₀ + 1 + j)).radio i).sent) B := rfl
            simp only [if_true] at h3
            omega
          · exact .inr ⟨B', g1.stable g2 hn (by omega) (by omega) (by omega), g1.timers B' g1.master⟩
      · obtain ⟨g1, g2⟩ := go B h2 ha
        exact ⟨g1, .inr ⟨B, g2⟩⟩
  have e : k₀ + 1 + (n - 1) = k₀ + n := by omega
  obtain ⟨_, h⟩ := key (n - 1) (by omega)
  rw [e] at h
  rcases h with ⟨A, x, h, _⟩ | ⟨A, h, ha⟩
  · exact ⟨A, h.master, h.timers A h.master⟩
  · refine ⟨A, ?_, ha⟩
    have := h.only A
    rwa [if_pos rfl] at this

/-- When the master sends: heartbeats every 1001 ms from when it became master, and, for the first
half hour, its instruction every 2001 ms. -/
theorem Spec.Course.times (c : Course net d N) (hn : n ≤ 99) {k₀ : Nat} (hk : k₀ + n ≤ N)
    (hm : (net k₀).getNumMasters ≠ 0) (hm' : ∀ j < k₀, (net j).getNumMasters = 0) {A}
    (st : ∀ j, k₀ + n + j ≤ N → Stable (net (k₀ + n + j)) A (net (k₀ + n + j)).now.toNat) {j : Nat}
    (hj : k₀ + n + j ≤ N) :
    ∃ p, ((net (k₀ + n + j)).node A).timers.heartbeat.toNat = (net k₀).now.toNat + 1000 + 1001 * p ∧
      (net (k₀ + n + j)).now.toNat ≤ (net k₀).now.toNat + 1000 + 1001 * p ∧
      (net k₀).now.toNat + 1001 * p ≤ (net (k₀ + n + j)).now.toNat ∧
      ((net (k₀ + n + j)).now.toNat ≤ 2000000 →
        ∃ p', ((net (k₀ + n + j)).node A).timers.broadcastEffect.toNat =
            (net k₀).now.toNat + 2000 + 2001 * p' ∧
          (net (k₀ + n + j)).now.toNat ≤ (net k₀).now.toNat + 2000 + 2001 * p' ∧
          (net k₀).now.toNat + 2001 * p' ≤ (net (k₀ + n + j)).now.toNat) := by
  induction j with
  | zero =>
    obtain ⟨B, hB, h1, h2, _⟩ := c.armed hn hk hm hm'
    have hBA : B = A := by
      apply Classical.byContradiction
      intro hne
      have := (st 0 (by omega)).only B
      rw [if_neg hne] at this
      rw [show k₀ + n + 0 = k₀ + n from rfl] at this
      unfold Node.getCurrentState at this
      rw [hB] at this; cases this
    subst hBA
    obtain ⟨A', _⟩ := c.appears hn (k := k₀) (by omega) hm hm'
    obtain ⟨e, _⟩ := c.elects hn (k₀ := k₀) hm hm' (j := n - 1) (by have := A'.pos; omega)
    have := A'.pos
    rw [show k₀ + 1 + (n - 1) = k₀ + n by omega] at e
    exact ⟨0, by simpa using h1, by show (net (k₀ + n)).now.toNat ≤ _; omega,
      by show _ ≤ (net (k₀ + n)).now.toNat; omega, fun _ => ⟨0, by simpa using h2,
        by show (net (k₀ + n)).now.toNat ≤ _; omega,
        by show _ ≤ (net (k₀ + n)).now.toNat; omega⟩⟩
  | succ j ih =>
    obtain ⟨p, i1, i2, i3, i4⟩ := ih (by omega)
    obtain ⟨e, m, b, _⟩ := c.beat hn (k := k₀ + n + j) (by omega) (st j (by omega))
    have f := b.fires
    have o := b.onTime
    have hH : (((net (k₀ + n + j)).advanceMillis (d (k₀ + n + j))).node A).timers.heartbeat.toNat =
      ((net (k₀ + n + j)).node A).timers.heartbeat.toNat := rfl
    have hB : (((net (k₀ + n + j)).advanceMillis (d (k₀ + n + j))).node A).timers.broadcastEffect.toNat =
      ((net (k₀ + n + j)).node A).timers.broadcastEffect.toNat := rfl
    have hC : (((net (k₀ + n + j)).advanceMillis (d (k₀ + n + j))).node A).timers.changeEffect.toNat =
      ((net (k₀ + n + j)).node A).timers.changeEffect.toNat := rfl
    rw [hH, hB, hC] at f o
    rw [← Nat.add_assoc]
    generalize ((net (k₀ + n + j + 1)).node A).timers.broadcastEffect.toNat = b' at *
    generalize ((net (k₀ + n + j + 1)).node A).timers.heartbeat.toNat = h' at *
    generalize ((net (k₀ + n + j + 1)).node A).timers.changeEffect.toNat = c' at *
    generalize ((net (k₀ + n + j)).node A).timers.broadcastEffect.toNat = b0 at *
    generalize ((net (k₀ + n + j)).node A).timers.heartbeat.toNat = h0 at *
    generalize ((net (k₀ + n + j)).node A).timers.changeEffect.toNat = c0 at *
    generalize (net (k₀ + n + j + 1)).now.toNat = t' at *
    generalize (net (k₀ + n + j)).now.toNat = t at *
    generalize (net k₀).now.toNat = T0 at *
    have hb : ∃ p, h' = T0 + 1000 + 1001 * p ∧ t' ≤ T0 + 1000 + 1001 * p ∧ T0 + 1001 * p ≤ t' := by
      cases f <;> first
        | exact ⟨p, by omega, by omega, by omega⟩
        | exact ⟨p + 1, by omega, by omega, by omega⟩
    obtain ⟨p1, g1, g2, g3⟩ := hb
    refine ⟨p1, g1, g2, g3, fun h6 => ?_⟩
    obtain ⟨p', r1, r2, r3⟩ := i4 (by omega)
    exact f.repeats e r1 r2 r3 i1 (by omega)

end

end Firefly
