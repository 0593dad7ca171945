import Verif.Lemmas.FakeLossy
import Verif.Spec.FakeLoss

/-! # Courses with packet loss in the network of the integration tests -/

namespace Firefly
open Spec FakeNet

namespace FakeNet

theorem staged_or {n} (net : FakeNet n) (draws i) :
    net.staged draws i = none ∨ net.staged draws i = net.air := by
  unfold staged air
  split
  · exact .inr rfl
  · exact .inl rfl

end FakeNet

namespace Node

/-- Deadlines of slaves do not come nearer than 5 s by hearing something, and are that far away after
a heartbeat was passed on. -/
theorem TickCase.keeps {plat now rx} {s s' : Node} (h : TickCase plat now rx s s')
    (hw : now.toNat + 255000 < 2 ^ 32) :
    (∀ y, y ≤ now.toNat + 5000 → (s.state = .slave → y ≤ s.timers.heartbeat.toNat) →
      s'.state = .slave → y ≤ s'.timers.heartbeat.toNat) ∧
    ((∃ p ∈ s'.sent.drop s.sent.length, p.type = .heartbeat) → s'.state = .slave →
      now.toNat + 5000 ≤ s'.timers.heartbeat.toNat) := by
  have arm : ∀ n, now.toNat + 5000 ≤ (now + BitVec.ofNat 32 (5000 + n % 2000)).toNat := by
    intro n
    rw [timeout_toNat hw]
    omega
  cases h with
  | slaveQuiet => exact ⟨fun y _ h => h, by simp⟩
  | slaveEffect p _ _ hp | slaveControl p _ _ hp | other p _ _ _ hp =>
    refine ⟨fun y _ h => h, ?_⟩
    rintro ⟨q, hq, hqt⟩
    simp [afterAccept, afterSlaveEffect] at hq
    rw [hq, hp] at hqt; cases hqt
  | masterQuiet _ e | beat _ e | change _ e | «repeat» _ e =>
    refine ⟨fun y _ _ e' => ?_, fun _ e' => ?_⟩
    all_goals
      have e' : s.state = .slave := e'
      rw [e] at e'; cases e'
  | electionWon _ _ e | masterEffect _ _ e | masterControl _ _ e =>
    refine ⟨fun y _ _ e' => ?_, fun _ e' => ?_⟩
    all_goals
      have e' : s.state = .slave := e'
      rw [e] at e'; cases e'
  | takeOver => exact ⟨fun _ _ _ e => (by cases e), fun _ e => by cases e⟩
  | slaveHeartbeat | slaveClaim =>
    rw [armSlaveTimeout_eq]
    exact ⟨fun y hy _ _ => Nat.le_trans hy (arm _), fun _ _ => arm _⟩
  | electionLost | masterClaim =>
    unfold afterBeginSlave
    rw [armSlaveTimeout_eq]
    exact ⟨fun y hy _ _ => Nat.le_trans hy (arm _), fun _ _ => arm _⟩

theorem tick_keeps {now rx} {s s' : Node} (h : s.Sound0)
    (ht : s.tick .host now rx now rx = .ok s') (hw : now.toNat + 255000 < 2 ^ 32) :
    (∀ y, y ≤ now.toNat + 5000 → (s.state = .slave → y ≤ s.timers.heartbeat.toNat) →
      s'.state = .slave → y ≤ s'.timers.heartbeat.toNat) ∧
    ((∃ p ∈ s'.sent.drop s.sent.length, p.type = .heartbeat) → s'.state = .slave →
      now.toNat + 5000 ≤ s'.timers.heartbeat.toNat) := by
  obtain ⟨s₁, c1, k1, e | ⟨s₂, c2, k2, e⟩⟩ := h.tick ht
  · subst e; exact c1.keeps hw
  · subst e
    obtain ⟨a1, a2⟩ := c1.keeps hw
    obtain ⟨b1, b2⟩ := c2.keeps hw
    refine ⟨fun y hy h => b1 y hy (a1 y hy h), ?_⟩
    rintro ⟨p, hp, hpt⟩
    obtain ⟨l₁, g1, _⟩ := c1.grows
    obtain ⟨l₂, g2, _⟩ := c2.grows
    have e1 : s₁.sent.drop s.sent.length = l₁ := by rw [g1]; simp
    have e2 : s₂.sent.drop s₁.sent.length = l₂ := by rw [g2]; simp
    have e3 : s₂.sent.drop s.sent.length = l₁ ++ l₂ := by rw [g2, g1]; simp
    have hp : p ∈ s₂.sent.drop s.sent.length := hp
    rw [e3] at hp
    rcases List.mem_append.1 hp with hp | hp
    · exact b1 _ (Nat.le_refl _) (a2 ⟨p, by rw [e1]; exact hp, hpt⟩)
    · exact b2 ⟨p, by rw [e2]; exact hp, hpt⟩

end Node

section
variable {n : Nat} {net mid : Nat → FakeNet n} {R : Nat → List (Fin n)} {d : Nat → U32} {K N : Nat}
  {A : Fin n}

/-- How long the slaves wait at least after `k` `Tick`s. -/
structure History (net mid : Nat → FakeNet n) (R : Nat → List (Fin n)) (k : Nat) : Prop where
  resets : ∀ i, ((net k).node i).state = .slave → ∀ j < k, i ∈ R j →
    (net j).now.toNat + 5000 ≤ ((net k).node i).timers.heartbeat.toNat
  beats : ∀ i, ((net k).node i).state = .slave → ∀ j < k, Beats (mid j) (net (j + 1)) i →
    (net (j + 1)).now.toNat + 5000 ≤ ((net k).node i).timers.heartbeat.toNat
  mono : ∀ j < k, (net j).now.toNat ≤ (net (j + 1)).now.toNat

theorem History.le {k : Nat} (h : History net mid R k) {j : Nat} (hj : j ≤ k) :
    (net j).now.toNat ≤ (net k).now.toNat := by
  have : ∀ m, j + m ≤ k → (net j).now.toNat ≤ (net (j + m)).now.toNat := by
    intro m
    induction m with
    | zero => exact fun _ => Nat.le_refl _
    | succ m ih => exact fun hm => Nat.le_trans (ih (by omega)) (h.mono (j + m) (by omega))
  have := this (k - j) (by omega)
  rwa [show j + (k - j) = k by omega] at this

theorem History.start : History net mid R 0 :=
  ⟨fun _ _ j hj => by omega, fun _ _ j hj => by omega, fun j hj => by omega⟩

/-- What resets do to the deadlines. -/
theorem History.reset {k : Nat} (h : History net mid R k) (hr : Resets (R k) (net k) (mid k))
    (hw : (net k).now.toNat + 255000 < 2 ^ 32) {i : Fin n} (hs : ((mid k).node i).state = .slave) :
    (∀ j ≤ k, i ∈ R j →
      (net j).now.toNat + 5000 ≤ ((mid k).node i).timers.heartbeat.toNat) ∧
    ∀ j < k, Beats (mid j) (net (j + 1)) i →
      (net (j + 1)).now.toNat + 5000 ≤ ((mid k).node i).timers.heartbeat.toNat := by
  rcases (hr.facts hw).2.2.2.2 i with ⟨h1, e⟩ | ⟨h1, e⟩
  · rw [e] at hs ⊢
    refine ⟨fun j hj hi => ?_, h.beats i hs⟩
    by_cases hjk : j = k
    · rw [hjk] at hi; exact absurd hi h1
    · exact h.resets i hs j (by omega) hi
  · have := e.deadline
    refine ⟨fun j hj hi => ?_, fun j hj _ => ?_⟩
    · have := h.le hj; omega
    · have := h.le (j := j + 1) (by omega); omega

theorem History.step {k : Nat} {x : FakeNet n} {rx} (h : History net mid R k)
    (hr : Resets (R k) (net k) (mid k)) (hw : (net k).now.toNat + 255000 < 2 ^ 32)
    (hx : x.node = (mid k).node) (r : Round x (net (k + 1)) rx)
    (hs : ∀ i, ((net k).node i).Sound0) (hle : (net k).now.toNat ≤ (net (k + 1)).now.toNat)
    (hw' : (net (k + 1)).now.toNat + 255000 < 2 ^ 32) : History net mid R (k + 1) := by
  have hsound : ∀ i, ((mid k).node i).Sound0 := fun i => by
    rcases (hr.facts hw).2.2.2.2 i with ⟨_, e⟩ | ⟨_, e⟩
    · rw [e]; exact hs i
    · exact e.sound
  have tk : ∀ i, ((mid k).node i).tick .host (net (k + 1)).now (rx i) (net (k + 1)).now (rx i) =
      .ok ((net (k + 1)).node i) := by
    intro i
    have := r.ticks i
    rwa [hx, ← r.now] at this
  have keeps := fun i => Node.tick_keeps (hsound i) (tk i) hw'
  refine ⟨fun i hsl j hj hi => ?_, fun i hsl j hj hb => ?_, fun j hj => ?_⟩
  · refine (keeps i).1 _ ?_ (fun e => (h.reset hr hw e).1 j (by omega) hi) hsl
    have := h.le (j := j) (by omega); omega
  · by_cases hjk : j = k
    · subst hjk
      exact (keeps i).2 hb hsl
    · refine (keeps i).1 _ ?_ (fun e => (h.reset hr hw e).2 j (by omega) hb) hsl
      have := h.le (j := j + 1) (by omega); omega
  · by_cases hjk : j = k
    · subst hjk; exact hle
    · exact h.mono j (by omega)

theorem Spec.ResetCourse.history {N} (c : ResetCourse net mid R d N) (hn : n ≤ 42) {k : Nat}
    (hk : k ≤ N) : History net mid R k := by
  induction k with
  | zero => exact .start
  | succ k ih =>
    obtain ⟨p, s⟩ := c.phase hn (k := k) (by omega)
    have hw := c.clock k (by omega)
    have facts := (c.reset k (by omega)).facts hw
    have r := c.round (k := k) (by omega) (facts.2.2.2.1.trans p.sound.2)
    exact (ih (by omega)).step (x := (mid k).advanceMillis (d k)) (c.reset k (by omega)) hw rfl r p.sound.1
      (c.phase_step hn (by omega) p s).2.1 (c.clock (k + 1) hk)

/-- What is true after `k` `Tick`s. -/
structure LossPhase (net mid : Nat → FakeNet n) (R : Nat → List (Fin n)) (A : Fin n)
    (k ρ s₀ : Nat) : Prop where
  lossy : Lossy (net k) A (net k).now.toNat ρ s₀
  late : 5001 < (net k).now.toNat
  last : ρ = 0 ∨ ∃ j < k, R j ≠ [] ∧ ρ + k ≤ (net k).now.toNat + j
  past : History net mid R k

namespace Spec.LossCourse

theorem firm (c : LossCourse net mid R d K N A) (hn : n ≤ 42) :
    ∃ ρ, Firm (net K) A (net K).now.toNat ρ ∧ 5001 < (net K).now.toNat ∧
      (ρ = 0 ∨ ∃ j < K, R j ≠ [] ∧ ρ + K ≤ (net K).now.toNat + j) := by
  obtain ⟨j₀, hj₀, hm⟩ := c.settled
  have hA : ((net K).node A).state = .master := by
    have := c.one A
    rw [if_pos rfl] at this; exact this
  obtain ⟨p, _⟩ := c.before.phase hn (k := K) (Nat.le_refl _)
  cases p with
  | lost U S u l =>
    have := getNumMasters_one c.one
    rw [l.noMaster] at this; cases this
  | start B j st hj hz =>
    have : j = j₀ := by omega
    rw [this] at hz; exact absurd hz hm
  | contest B x T0 j ct hz ht h1 hj hc =>
    have := OnlyMaster.eq c.one ct.master
    subst this
    refine ⟨0, ct.firm (fun i hi => ?_) hn (by omega) h1 (by omega) 0, by omega, .inl rfl⟩
    have := c.one i
    rw [if_neg hi] at this; exact this
  | firm B ρ f ht hρ =>
    have := OnlyMaster.eq f.only hA
    subst this
    exact ⟨ρ, f, ht, hρ⟩

theorem phase_start (c : LossCourse net mid R d K N A) (hn : n ≤ 42) :
    ∃ ρ s₀, LossPhase net mid R A K ρ s₀ := by
  obtain ⟨ρ, f, ht, hρ⟩ := c.firm hn
  obtain ⟨s₀, h⟩ := f.lossy
  exact ⟨ρ, s₀, h, ht, hρ, c.before.history hn (Nat.le_refl _)⟩

theorem phase_step (c : LossCourse net mid R d K N A) (hn : n ≤ 42) {k ρ s₀ : Nat} (hK : K ≤ k)
    (hk : k < N) (p : LossPhase net mid R A k ρ s₀) :
    ∃ ρ' s₁, LossPhase net mid R A (k + 1) ρ' s₁ ∧ (s₁ = s₀ ∨
      s₁ = (net (k + 1)).now.toNat ∧ (net (k + 1)).packet = none ∧
        ∀ i, ((net (k + 1)).radio i).sent = none) ∧
      (net (k + 1)).now.toNat = (net k).now.toNat + 1 := by
  obtain ⟨hr, hA⟩ := c.reset k hK hk
  have hw := c.clock k (by omega)
  have facts := hr.facts hw
  -- after the resets
  have mid' : ∃ ρ', Lossy (mid k) A (net k).now.toNat ρ' s₀ ∧
      (ρ' = 0 ∨ ∃ j < k + 1, R j ≠ [] ∧ ρ' + k ≤ (net k).now.toNat + j) := by
    by_cases hR : R k = []
    · have hm : mid k = net k := by
        rw [hR] at hr
        generalize mid k = m at hr
        cases hr
        rfl
      rw [hm]
      refine ⟨ρ, p.lossy, ?_⟩
      rcases p.last with h | ⟨j, h1, h2, h3⟩
      · exact .inl h
      · exact .inr ⟨j, by omega, h2, h3⟩
    · have hρ : ρ + (10 * n + 3) ≤ (net k).now.toNat := by
        have := p.late
        rcases p.last with h | ⟨j, h1, h2, h3⟩
        · omega
        · by_cases hj : k < j + (10 * n + 3)
          · exact absurd (c.calm k hK hk hR j h1 hj) h2
          · omega
      exact ⟨_, p.lossy.reset hr rfl hw hρ hA, .inr ⟨k, by omega, hR, by omega⟩⟩
  obtain ⟨ρ', hl, hlast⟩ := mid'
  have due : ∀ i, i ≠ A → (net k).now.toNat + 1 ≤ ((mid k).node i).timers.heartbeat.toNat := by
    intro i hi
    have hsl : ((mid k).node i).state = .slave := by
      obtain ⟨_, _, _, h⟩ := hl; exact h.slaves i hi
    obtain ⟨h1, h2⟩ := p.past.reset hr hw hsl
    rcases c.heard k hK hk i hi with ⟨j, hj, hR, ht⟩ | ⟨j, hj, hb, ht⟩
    · have := h1 j hj hR; omega
    · have := h2 j hj hb; omega
  -- the `Tick`
  obtain ⟨loss, draws, hs⟩ := c.step k hK hk
  have r := tick_round hs
  have hnow : (((mid k).setPacketLoss loss).advanceMillis 1).now.toNat = (net k).now.toNat + 1 := by
    show ((mid k).now + 1).toNat = _
    rw [facts.1, Node.add_toNat hw (by decide)]
    rfl
  have hnow' : (net (k + 1)).now.toNat = (net k).now.toNat + 1 := by rw [r.now, hnow]
  have hw' := c.clock (k + 1) (by omega)
  obtain ⟨s₁, l', hs₁⟩ := (hl.advance 1 loss).tick (by omega) r (fun i => staged_or _ _ i) hnow
    (by omega) due
  refine ⟨ρ', s₁, ⟨by rw [hnow']; exact l', by have := p.late; omega, ?_,
    p.past.step (x := ((mid k).setPacketLoss loss).advanceMillis 1) hr hw rfl r (fun i => ?_) (by omega) hw'⟩, by rw [hnow']; exact hs₁, hnow'⟩
  · rcases hlast with h | ⟨j, h1, h2, h3⟩
    · exact .inl h
    · exact .inr ⟨j, h1, h2, by omega⟩
  · obtain ⟨_, _, _, h⟩ := p.lossy; exact h.sound i

theorem phase (c : LossCourse net mid R d K N A) (hn : n ≤ 42) {k : Nat} (hK : K ≤ k)
    (hk : k ≤ N) : ∃ ρ s₀, LossPhase net mid R A k ρ s₀ := by
  have : ∀ m, K + m ≤ N → ∃ ρ s₀, LossPhase net mid R A (K + m) ρ s₀ := by
    intro m
    induction m with
    | zero => exact fun _ => c.phase_start hn
    | succ m ih =>
      intro hm
      obtain ⟨ρ, s₀, p⟩ := ih (by omega)
      obtain ⟨ρ', s₁, p', _, _⟩ := c.phase_step hn (by omega) (by omega) p
      exact ⟨ρ', s₁, p'⟩
  have := this (k - K) (by omega)
  rwa [show K + (k - K) = k by omega] at this

/-- The network falls quiet. -/
theorem quiet (c : LossCourse net mid R d K N A) (hn : n ≤ 42) {k : Nat} (hK : K ≤ k)
    (hk : k + (10 * n + 3) ≤ N) :
    ∃ j, k < j ∧ j ≤ k + (10 * n + 3) ∧ (net j).packet = none ∧
      ∀ i, ((net j).radio i).sent = none := by
  obtain ⟨ρ, s₀, p⟩ := c.phase hn hK (by omega)
  have hs : s₀ ≤ (net k).now.toNat := by
    obtain ⟨u, l, S, h⟩ := p.lossy; exact h.since
  apply Classical.byContradiction
  intro hno
  have : ∀ m, m ≤ 10 * n + 3 → (∃ ρ, LossPhase net mid R A (k + m) ρ s₀) ∧
      (net (k + m)).now.toNat = (net k).now.toNat + m := by
    intro m
    induction m with
    | zero => exact fun _ => ⟨⟨ρ, p⟩, rfl⟩
    | succ m ih =>
      intro hm
      obtain ⟨⟨ρ, p⟩, ht⟩ := ih (by omega)
      obtain ⟨ρ', s₁, p', h | ⟨_, h1, h2⟩, ht'⟩ := c.phase_step hn (by omega) (by omega) p
      · subst h; exact ⟨⟨ρ', p'⟩, by rw [← Nat.add_assoc, ht', ht]; omega⟩
      · exact absurd ⟨k + m + 1, by omega, by omega, h1, h2⟩ hno
  obtain ⟨⟨ρ', p'⟩, ht⟩ := this (10 * n + 3) (Nat.le_refl _)
  obtain ⟨u, l, S, h⟩ := p'.lossy
  have := h.bounds.2
  split at this <;> omega

end Spec.LossCourse
end
end Firefly
