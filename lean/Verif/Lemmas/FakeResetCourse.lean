import Verif.Lemmas.FakeLost

/-! # The course of a network of the integration tests with resets -/

namespace Firefly
open Spec

namespace FakeNet

theorem Lost.advance {n} {net : FakeNet n} {t U S u} (c : Lost net t U S u) (d : U32) :
    Lost (net.advanceMillis d) t U S u :=
  ⟨c.1, c.2, c.3, c.4, c.5, c.6, c.7, c.8, c.9, c.10, c.11, c.12⟩

theorem Start.advance {n} {net : FakeNet n} {T A} (c : Start net T A) (d : U32) :
    Start (net.advanceMillis d) T A := ⟨c.1, c.2, c.3, c.4, c.5, c.6, c.7⟩

theorem Contest.advance {n} {net : FakeNet n} {T A x} (c : Contest net T A x) (d : U32) :
    Contest (net.advanceMillis d) T A x :=
  ⟨c.1, c.2, c.3, c.4, c.5, c.6, c.7, c.8, c.9, c.10⟩

theorem Firm.advance {n} {net : FakeNet n} {A t ρ} (c : Firm net A t ρ) (d : U32) :
    Firm (net.advanceMillis d) A t ρ := by
  obtain ⟨a1, a2, a3, a4, a5, a6, c⟩ := c
  exact ⟨a1, a2, a3, a4, a5, a6, c.1, c.2, c.3, c.4, c.5, c.6, c.7, c.8, c.9, c.10, c.11, c.12,
    c.13, c.14, c.15, c.16, c.17, c.18, c.19⟩

theorem OnlyMaster.eq {n} {net : FakeNet n} {A B : Fin n} (h : OnlyMaster net A)
    (hB : (net.node B).state = .master) : B = A := by
  by_cases e : B = A
  · exact e
  · have := h B
    rw [if_neg e] at this
    have this : (net.node B).state = .slave := this
    rw [hB] at this; cases this

end FakeNet

open FakeNet

section
variable {n : Nat} {net mid : Nat → FakeNet n} {R : Nat → List (Fin n)} {d : Nat → U32} {N : Nat}

/-- What may be true after `k` `Tick`s. -/
inductive Phase (net : Nat → FakeNet n) (R : Nat → List (Fin n)) (k : Nat) : Prop
  | lost (U S u) (c : Lost (net k) (net k).now.toNat U S u)
      (ran : ∀ i, ((net k).node i).tickRun = true)
  | start (A j) (c : Start (net k) (net k).now.toNat A) (hj : k = j + 1)
      (hm : (net j).getNumMasters = 0) (ht : 5001 < (net k).now.toNat)
  | contest (A x T0 j) (c : Contest (net k) T0 A x) (hm : (net j).getNumMasters = 0)
      (ht : 5001 < T0) (h1 : T0 + 1 ≤ (net k).now.toNat) (hj : k + T0 = j + 1 + (net k).now.toNat)
      (hc : waits (fun i => ((net k).radio i).sent) A + (if (net k).packet.isSome then 1 else 0) +
        (net k).now.toNat ≤ n + T0)
  | firm (A ρ) (c : Firm (net k) A (net k).now.toNat ρ) (ht : 5001 < (net k).now.toNat)
      (hρ : ρ = 0 ∨ ∃ j < k, R j ≠ [] ∧ ρ + k ≤ (net k).now.toNat + j)

/-- What is true of all devices after `k` `Tick`s. -/
structure Sane (net : FakeNet n) : Prop where
  seen : ∀ i, (net.node i).effectChangeSeenAt.toNat ≤ net.now.toNat
  near : ∀ i, (net.node i).state = .slave →
    (net.node i).timers.heartbeat.toNat < net.now.toNat + 7000

theorem Phase.sound {k : Nat} (h : Phase net R k) :
    (∀ i, ((net k).node i).Sound0) ∧ (net k).loss = 0 := by
  cases h with
  | lost U S u c => exact ⟨c.sound, c.loss⟩
  | start A j c => exact ⟨fun i => (c.sound i).zero, c.loss⟩
  | contest A x T0 j c => exact ⟨fun i => (c.sound i).zero, c.loss⟩
  | firm A ρ c => obtain ⟨_, _, _, _, _, _, c⟩ := c; exact ⟨c.sound, c.loss⟩

namespace Spec.ResetCourse

theorem round (c : ResetCourse net mid R d N) {k} (hk : k < N) (hl : (mid k).loss = 0) :
    Round ((mid k).advanceMillis (d k)) (net (k + 1)) fun _ =>
      ((mid k).advanceMillis (d k)).air := by
  obtain ⟨draws, h⟩ := c.step k hk
  have r := tick_round h
  have : ((mid k).advanceMillis (d k)).staged draws = fun _ =>
      ((mid k).advanceMillis (d k)).air := funext fun i => staged_air hl draws i
  rwa [this] at r

/-- The clock. -/
theorem time (c : ResetCourse net mid R d N) {k} (hk : k < N) :
    ((mid k).advanceMillis (d k)).now = (net k).now + d k := by
  have := (c.reset k hk).facts (c.clock k (by omega))
  show (mid k).now + d k = _
  rw [this.1]

theorem slow (c : ResetCourse net mid R d N) {k} (hk : k < N)
    (h : (net k).getNumMasters ≠ 0 ∨ (net k).packet ≠ none) :
    ((mid k).advanceMillis (d k)).now.toNat = (net k).now.toNat + 1 := by
  rw [c.time hk, c.pace k hk h, Node.add_toNat (c.clock k (by omega)) (by decide)]
  rfl

theorem same (c : ResetCourse net mid R d N) {k} (hk : k < N) (hR : R k = []) :
    mid k = net k := by
  have h := c.reset k hk
  rw [hR] at h
  generalize mid k = m at h
  cases h
  rfl

/-- A `Tick` without a master. -/
theorem lost_tick (c : ResetCourse net mid R d N) (hn : n ≤ 42) {k} (hk : k < N) {U S u}
    (l : Lost (mid k) (net k).now.toNat U S u)
    (sane : Sane (net k))
    (ran : ∀ i, ((mid k).node i).tickRun = true ∨
      ((mid k).advanceMillis (d k)).now.toNat ≤ ((mid k).node i).timers.heartbeat.toNat) :
    (∃ u', Lost (net (k + 1)) (net (k + 1)).now.toNat U S u' ∧
      (∀ i, ((net (k + 1)).node i).tickRun = true) ∧
      (0 < n → (net (k + 1)).now.toNat ≤ U)) ∨
    ∃ A, Start (net (k + 1)) (net (k + 1)).now.toNat A ∧ 5001 < (net (k + 1)).now.toNat ∧
      ((mid k).node A).timers.heartbeat.toNat < (net (k + 1)).now.toNat := by
  have r := c.round hk l.loss
  have he := c.early k hk l.noMaster
  have hnow : ((mid k).advanceMillis (d k)).now.toNat = (net k).now.toNat + (d k).toNat := by
    rw [c.time hk, BitVec.toNat_add]; omega
  have hnow' : (net (k + 1)).now.toNat = (net k).now.toNat + (d k).toNat := by
    rw [r.now]; exact hnow
  have facts := (c.reset k hk).facts (c.clock k (by omega))
  have hseen : ∀ i, (((mid k).advanceMillis (d k)).node i).effectChangeSeenAt.toNat ≤
      ((mid k).advanceMillis (d k)).now.toNat := by
    intro i
    show ((mid k).node i).effectChangeSeenAt.toNat ≤ _
    have := sane.seen i
    rcases facts.2.2.2.2 i with ⟨_, e⟩ | ⟨_, e⟩
    · rw [e]; omega
    · rw [e.seen]; exact Nat.zero_le _
  rcases (l.advance (d k)).tick hn r (by omega) (c.fresh k hk)
    (fun h => c.slow hk (.inr (by rw [← facts.2.2.1]; exact h))) ran hseen with ⟨⟨u', h1⟩, h2, h3⟩ | ⟨A, h1, h2⟩
  · left
    rw [hnow, ← hnow'] at h1 h2
    refine ⟨u', h1, fun i => ((l.sound i).after (r.ticks i)).ran, fun h0 => ?_⟩
    rcases h2 with h2 | h2
    · exact Nat.le_trans (h2 ⟨0, h0⟩) (l.bound _)
    · exact h2
  · right
    rw [hnow, ← hnow'] at h1 h2
    refine ⟨A, h1, ?_, h2⟩
    have := l.pos A
    have e : (((mid k).advanceMillis (d k)).node A).timers.heartbeat.toNat =
      ((mid k).node A).timers.heartbeat.toNat := rfl
    omega

theorem sane_step (c : ResetCourse net mid R d N) {k} (hk : k < N)
    (h0 : ∀ i, ((net k).node i).Sound0) (hl : (net k).loss = 0)
    (sane : Sane (net k)) (hle : (net k).now.toNat ≤ (net (k + 1)).now.toNat) :
    Sane (net (k + 1)) := by
  have facts := (c.reset k hk).facts (c.clock k (by omega))
  have r := c.round hk (facts.2.2.2.1.trans hl)
  have hw := c.clock (k + 1) (by omega)
  have hs : ∀ i, ((mid k).node i).Sound0 := fun i => by
    rcases facts.2.2.2.2 i with ⟨_, e⟩ | ⟨_, e⟩
    · rw [e]; exact h0 i
    · exact e.sound
  refine ⟨fun i => ?_, fun i => ?_⟩
  · have h1 : ((mid k).node i).effectChangeSeenAt.toNat ≤ (net k).now.toNat := by
      rcases facts.2.2.2.2 i with ⟨_, e⟩ | ⟨_, e⟩
      · rw [e]; exact sane.seen i
      · rw [e.seen]; exact Nat.zero_le _
    rcases Node.tick_seen (hs i) (r.ticks i) with e | e
    · rw [e]; exact Nat.le_trans h1 hle
    · rw [e, ← r.now]; exact Nat.le_refl _
  · refine Node.tick_near (hs i) (r.ticks i) (by rw [← r.now]; exact hw)
      (by rw [← r.now]; exact Nat.le_refl _) ?_
    intro hsl
    show ((mid k).node i).timers.heartbeat.toNat < _
    have hsl : ((mid k).node i).state = .slave := hsl
    rcases facts.2.2.2.2 i with ⟨_, e⟩ | ⟨_, e⟩
    · rw [e] at hsl ⊢
      have := sane.near i hsl
      omega
    · have := e.deadline; omega

/-- Only a network with one master is disturbed. -/
theorem undisturbed (c : ResetCourse net mid R d N) {k j} (hk : k < N) (hj : j ≤ k)
    (hkj : k < j + (10 * n + 3)) (hm : (net j).getNumMasters = 0) : R k = [] := by
  by_cases h : R k = []
  · exact h
  · have := (c.calm k hk h j hj hkj).1
    omega

theorem phase_start (c : ResetCourse net mid R d N) (hn : n ≤ 42) :
    Phase net R 0 ∧ Sane (net 0) := by
  obtain ⟨h1, h2, h3, h4⟩ := Booted.lost hn c.start (net 0).now.toNat
  refine ⟨.lost _ _ _ h1 h2, fun i => ?_, fun i _ => ?_⟩
  · rw [h4]; exact Nat.zero_le _
  · have := h1.bound i
    rw [c.start.now, BitVec.toNat_ofNat]; omega

/-- Who is master after the next `Tick`. -/
def Next (net : Nat → FakeNet n) (R : Nat → List (Fin n)) (k : Nat) : Prop :=
  (∀ A, OnlyMaster (net k) A → A ∉ R k → OnlyMaster (net (k + 1)) A) ∧
  ((net k).getNumMasters ≠ 0 → (net (k + 1)).getNumMasters = 0 →
    ∃ S u, Lost (net (k + 1)) (net (k + 1)).now.toNat ((net k).now.toNat + 7001 + 4 * n) S u ∧
      ∃ A ∈ R k, OnlyMaster (net k) A)

theorem phase_step (c : ResetCourse net mid R d N) (hn : n ≤ 42) {k} (hk : k < N)
    (p : Phase net R k) (sane : Sane (net k)) :
    Phase net R (k + 1) ∧ (net k).now.toNat ≤ (net (k + 1)).now.toNat ∧ Next net R k := by
  have hw := c.clock (k + 1) (by omega)
  have hf := c.fresh k hk
  cases p with
  | lost U S u l ran =>
    have hm : mid k = net k := c.same hk (c.undisturbed hk (Nat.le_refl _) (by omega) l.noMaster)
    have hnext : ∀ A, ¬ OnlyMaster (net k) A := fun A hA => by
      have := getNumMasters_one hA
      rw [l.noMaster] at this; cases this
    have hle : (net k).now.toNat ≤ (net (k + 1)).now.toNat := by
      have r := c.round hk (by rw [hm]; exact l.loss)
      have he := c.early k hk (by rw [hm]; exact l.noMaster)
      rw [r.now, c.time hk, BitVec.toNat_add]; omega
    refine ⟨?_, hle, fun A hA => absurd hA (hnext A), fun h => absurd l.noMaster h⟩
    rcases c.lost_tick hn hk (by rw [hm]; exact l) sane (by rw [hm]; exact fun i => .inl (ran i))
      with ⟨u', h1, h2, _⟩ | ⟨A, h1, h2, _⟩
    · exact .lost U S u' h1 h2
    · exact .start A k h1 rfl l.noMaster h2
  | start A j st hj hm0 ht =>
    have hm : mid k = net k := c.same hk (c.undisturbed hk (j := j) (by omega) (by omega) hm0)
    have hs := c.slow hk (.inl fun e => getNumMasters_zero.1 e A st.master)
    have r := c.round hk (by rw [hm]; exact st.loss)
    rw [hm] at hs r hf
    obtain ⟨x, h1, h2⟩ := (st.advance (d k)).tick r hs (by rw [← r.now]; exact hw) hf
    have hnow : (net (k + 1)).now.toNat = (net k).now.toNat + 1 := by rw [r.now, hs]
    refine ⟨.contest A x (net k).now.toNat j h1 hm0 ht (by omega) (by omega) (by omega), by omega,
      fun B hB _ => ?_, fun _ e => absurd h1.master (getNumMasters_zero.1 e A)⟩
    have hAB := OnlyMaster.eq hB st.master
    subst hAB
    have hsl : ∀ i, i ≠ A → ((net (k + 1)).node i).state = .slave := by
      intro i hi
      have hi' := hB i
      rw [if_neg hi] at hi'
      obtain ⟨q, hq, hqs, _, hqn⟩ := st.packet
      obtain ⟨p, hp, pid, pty⟩ := air_some (net := (net k).advanceMillis (d k)) hqs
      rw [hp] at r
      exact ((st.sound i).slave_hears (by rw [← r.now]; exact hw) hi'
        (by rw [pid]; exact hqn i hi) (.inr (.inl (pty.trans hq))) (r.ticks i)).1
    intro i
    by_cases hi : i = A
    · subst hi; rw [if_pos rfl]; exact h1.master
    · rw [if_neg hi]; exact hsl i hi
  | contest A x T0 j ct hm0 ht h1 hj hc =>
    have hR := c.undisturbed hk (j := j) (by omega) (by omega) hm0
    have hm : mid k = net k := c.same hk hR
    have hs := c.slow hk (.inl fun e => getNumMasters_zero.1 e A ct.master)
    have r := c.round hk (by rw [hm]; exact ct.loss)
    rw [hm] at hs r hf
    have hnow : (net (k + 1)).now.toNat = (net k).now.toNat + 1 := by rw [r.now, hs]
    by_cases hall : ∀ i, i ≠ A → ((net k).node i).state = .slave
    · have fm := ct.firm hall hn (by omega) h1 (by omega) 0
      have fm' := (fm.advance (d k)).tick hn r hs (by rw [← r.now]; exact hw) hf
      rw [← hnow] at fm'
      refine ⟨.firm A 0 fm' (by omega) (.inl rfl), by omega, fun B hB _ => ?_, fun _ e => ?_⟩
      · have := OnlyMaster.eq hB ct.master
        subst this
        exact fm'.only
      · rw [getNumMasters_one fm'.only] at e; cases e
    · have hnot : ∀ B, ¬ OnlyMaster (net k) B := by
        intro B hB
        have := OnlyMaster.eq hB ct.master
        subst this
        exact hall fun i hi => by have := hB i; rw [if_neg hi] at this; exact this
      have hsome : (net k).packet.isSome = true := by
        cases hp : (net k).packet with
        | some _ => rfl
        | none =>
          refine absurd (ct.sole ?_) hall
          rw [hp, waits_zero (ct.idle hp)]; rfl
      rw [hsome] at hc
      simp only [if_true] at hc
      rcases (ct.advance (d k)).tick r (by omega) (by omega) (by rw [← r.now]; exact hw) with
        ⟨g1, g2⟩ | ⟨B, y, g1, g2⟩
      · have e : waits (fun i => (((net k).advanceMillis (d k)).radio i).sent) A
          = waits (fun i => ((net k).radio i).sent) A := rfl
        exact ⟨.contest A x T0 j g1 hm0 ht (by omega) (by omega) (by omega), by omega,
          fun B hB => absurd hB (hnot B), fun _ e => absurd g1.master (getNumMasters_zero.1 e A)⟩
      · have fm := g1.firm g2 hn (by omega) (t := (net (k + 1)).now.toNat) (by omega) (by omega) 0
        exact ⟨.firm B 0 fm (by omega) (.inl rfl), by omega, fun B hB => absurd hB (hnot B),
          fun _ e => absurd g1.master (getNumMasters_zero.1 e B)⟩
  | firm A ρ fm ht hρ =>
    have facts := (c.reset k hk).facts (c.clock k (by omega))
    have hloss : (net k).loss = 0 := by obtain ⟨_, _, _, _, _, _, s⟩ := fm; exact s.loss
    have hs := c.slow hk (.inl (by rw [getNumMasters_one fm.only]; decide))
    have r := c.round hk (facts.2.2.2.1.trans hloss)
    have hnow : (net (k + 1)).now.toNat = (net k).now.toNat + 1 := by rw [r.now, hs]
    by_cases hR : R k = []
    · have hm := c.same hk hR
      rw [hm] at hs r hf
      have fm' := (fm.advance (d k)).tick hn r hs (by rw [← r.now]; exact hw) hf
      rw [← hnow] at fm'
      refine ⟨.firm A ρ fm' (by omega) ?_, by omega, fun B hB _ => ?_, fun _ e => ?_⟩
      · rcases hρ with h | ⟨j, h1, h2, h3⟩
        · exact .inl h
        · exact .inr ⟨j, by omega, h2, by omega⟩
      · have := OnlyMaster.eq hB (by have := fm.only A; rw [if_pos rfl] at this; exact this)
        subst this
        exact fm'.only
      · rw [getNumMasters_one fm'.only] at e; cases e
    · have hρ' : ρ + (10 * n + 3) ≤ (net k).now.toNat := by
        rcases hρ with h | ⟨j, h1, h2, h3⟩
        · omega
        · by_cases hj : k < j + (10 * n + 3)
          · exact absurd ((c.calm k hk hR j (by omega) hj).2 h1) h2
          · omega
      by_cases hA : A ∈ R k
      · obtain ⟨⟨S, u, l⟩, hd⟩ := fm.lost hn (c.reset k hk) rfl (c.clock k (by omega)) hA (by omega)
          sane.near
        rcases c.lost_tick hn hk l sane (fun i => .inr (by rw [hs]; exact hd i)) with
          ⟨u', h1, h2, _⟩ | ⟨B, h1, h2, h3⟩
        · refine ⟨.lost _ S u' h1 h2, by omega, fun B hB hBR => ?_, fun _ _ => ⟨S, u', h1, A, hA,
            fm.only⟩⟩
          have := OnlyMaster.eq hB (by have := fm.only A; rw [if_pos rfl] at this; exact this)
          exact absurd (this ▸ hA) hBR
        · have := hd B
          omega
      · have fr := fm.reset hn (c.reset k hk) rfl (c.clock k (by omega)) hρ' hA
        have fm' := (fr.advance (d k)).tick hn r hs (by rw [← r.now]; exact hw) hf
        rw [← hnow] at fm'
        refine ⟨.firm A _ fm' (by omega) (.inr ⟨k, by omega, hR, by omega⟩), by omega,
          fun B hB _ => ?_, fun _ e => ?_⟩
        · have := OnlyMaster.eq hB (by have := fm.only A; rw [if_pos rfl] at this; exact this)
          subst this
          exact fm'.only
        · rw [getNumMasters_one fm'.only] at e; cases e

theorem phase (c : ResetCourse net mid R d N) (hn : n ≤ 42) {k} (hk : k ≤ N) :
    Phase net R k ∧ Sane (net k) := by
  induction k with
  | zero => exact c.phase_start hn
  | succ k ih =>
    obtain ⟨p, s⟩ := ih (by omega)
    obtain ⟨p', hle, _⟩ := c.phase_step hn (by omega) p s
    exact ⟨p', c.sane_step (by omega) p.sound.1 p.sound.2 s hle⟩

theorem next (c : ResetCourse net mid R d N) (hn : n ≤ 42) {k} (hk : k < N) :
    Next net R k := by
  obtain ⟨p, s⟩ := c.phase hn (k := k) (by omega)
  exact (c.phase_step hn hk p s).2.2

end Spec.ResetCourse
end
end Firefly
