import Verif.Lemmas.FakeResetCourse
import Verif.Props.FakeElection

/-! # The network of the integration tests when devices are reset (C146) -/

namespace Firefly.Props
open Spec FakeNet

section
variable {n : Nat} {net mid : Nat → FakeNet n} {R : Nat → List (Fin n)} {d : Nat → U32} {N : Nat}

/-- C146: the only master stays the only master, whatever other devices are reset. -/
theorem reset_others_keeps_master (c : ResetCourse net mid R d N) (hn : n ≤ 42) {k : Nat}
    (hk : k < N) {A : Fin n} (hA : OnlyMaster (net k) A) (hR : A ∉ R k) :
    OnlyMaster (net (k + 1)) A :=
  (c.next hn hk).1 A hA hR

/-- C146: a network loses its master only if that is reset. -/
theorem reset_master_lost (c : ResetCourse net mid R d N) (hn : n ≤ 42) {k : Nat} (hk : k < N)
    (h0 : (net k).getNumMasters ≠ 0) (h1 : (net (k + 1)).getNumMasters = 0) :
    ∃ A ∈ R k, OnlyMaster (net k) A := by
  obtain ⟨_, _, _, h⟩ := (c.next hn hk).2 h0 h1
  exact h

/-- Without a master, the time is not yet up. -/
theorem masterless_until (c : ResetCourse net mid R d N) (hn : n ≤ 42) (h0 : 0 < n) {k U : Nat}
    {S u} (l : Lost (net k) (net k).now.toNat U S u) (ran : ∀ i, ((net k).node i).tickRun = true)
    (hU : (net k).now.toNat ≤ U) {m : Nat} (hm : k + m ≤ N)
    (hz : ∀ i, k < i → i ≤ k + m → (net i).getNumMasters = 0) : (net (k + m)).now.toNat ≤ U := by
  have key : ∀ m, k + m ≤ N → (∀ i, k < i → i ≤ k + m → (net i).getNumMasters = 0) →
      (net (k + m)).now.toNat ≤ U ∧ (∃ u, Lost (net (k + m)) (net (k + m)).now.toNat U S u) ∧
        ∀ i, ((net (k + m)).node i).tickRun = true := by
    intro m
    induction m with
    | zero => exact fun _ _ => ⟨hU, ⟨u, l⟩, ran⟩
    | succ m ih =>
      intro hm hz
      obtain ⟨_, ⟨u, l⟩, ran⟩ := ih (by omega) fun i h1 h2 => hz i h1 (by omega)
      have hk : k + m < N := by omega
      have e := c.same hk (c.undisturbed hk (Nat.le_refl _) (by omega) l.noMaster)
      rcases c.lost_tick hn hk (by rw [e]; exact l) (c.phase hn (by omega)).2
        (by rw [e]; exact fun i => .inl (ran i)) with ⟨u', h1, h2, h3⟩ | ⟨A, h1, _⟩
      · exact ⟨h3 h0, ⟨u', h1⟩, h2⟩
      · exact absurd h1.master (getNumMasters_zero.1 (hz (k + m + 1) (by omega) (by omega)) A)
  exact (key m hm hz).1

/-- C146: after the master was reset, the network is without one for at most `7001 + 4 n` ms. -/
theorem reset_master_replaced (c : ResetCourse net mid R d N) (hn : n ≤ 42) {k j : Nat}
    (hkj : k < j) (hj : j ≤ N) (h0 : (net k).getNumMasters ≠ 0)
    (h1 : ∀ i, k < i → i ≤ j → (net i).getNumMasters = 0) :
    (net j).now.toNat ≤ (net k).now.toNat + (7001 + 4 * n) := by
  obtain ⟨S, u, l, A, _, _⟩ := (c.next hn (k := k) (by omega)).2 h0 (h1 (k + 1) (by omega) (by omega))
  have hpos : 0 < n := A.pos
  obtain ⟨p, s⟩ := c.phase hn (k := k) (by omega)
  have ran : ∀ i, ((net (k + 1)).node i).tickRun = true := by
    obtain ⟨p', _⟩ := c.phase hn (k := k + 1) (by omega)
    cases p' with
    | lost _ _ _ _ h => exact h
    | start A j c => exact fun i => (c.sound i).ran
    | contest A x T0 j c => exact fun i => (c.sound i).ran
    | firm A ρ f =>
      have := getNumMasters_one f.only
      rw [l.noMaster] at this; cases this
  have hnow : (net (k + 1)).now.toNat = (net k).now.toNat + 1 := by
    have facts := (c.reset k (by omega)).facts (c.clock k (by omega))
    have r := c.round (k := k) (by omega) (facts.2.2.2.1.trans p.sound.2)
    rw [r.now, c.slow (by omega) (.inl h0)]
  have := masterless_until c hn hpos (k := k + 1) (m := j - (k + 1)) l ran (by omega) (by omega)
    fun i h2 h3 => h1 i (by omega) (by omega)
  rw [show k + 1 + (j - (k + 1)) = j by omega] at this
  omega

/-- C146: as long as no device is reset, a network with a master does not lose it, and `n` `Tick`s
after a network without one got one (or several at once), it has exactly one. -/
theorem reset_one_master (c : ResetCourse net mid R d N) (hn : n ≤ 42) {k : Nat}
    (hk : k + 1 + n ≤ N) (h0 : (net k).getNumMasters = 0) (h1 : (net (k + 1)).getNumMasters ≠ 0) :
    (∀ i, k < i → i ≤ k + 1 + n → (net i).getNumMasters ≠ 0) ∧
      ∃ A, OnlyMaster (net (k + 1 + n)) A := by
  have all : ∀ m, m ≤ n → (net (k + 1 + m)).getNumMasters ≠ 0 := by
    intro m
    induction m with
    | zero => exact fun _ => h1
    | succ m ih =>
      intro hm e
      have hR := c.undisturbed (k := k + 1 + m) (j := k) (by omega) (by omega) (by omega) h0
      obtain ⟨A, hA, _⟩ := reset_master_lost c hn (k := k + 1 + m) (by omega) (ih (by omega)) e
      rw [hR] at hA; cases hA
  have all' : ∀ i, k < i → i ≤ k + 1 + n → (net i).getNumMasters ≠ 0 := fun i h2 h3 => by
    have := all (i - (k + 1)) (by omega)
    rwa [show k + 1 + (i - (k + 1)) = i by omega] at this
  refine ⟨all', ?_⟩
  obtain ⟨p, _⟩ := c.phase hn (k := k + 1 + n) hk
  cases p with
  | lost _ _ _ l => exact absurd l.noMaster (all n (Nat.le_refl _))
  | start A j st hj hm =>
    exfalso
    have hjk : j = k + n := by omega
    by_cases h : n = 0
    · subst h; exact A.elim0
    · exact all' j (by omega) (by omega) hm
  | contest A x T0 j ct hm ht h2 hj hc =>
    have hjk : j ≤ k := by
      apply Classical.byContradiction
      intro e
      exact all' j (by omega) (by omega) hm
    have := ct.sole (by omega)
    refine ⟨A, fun i => ?_⟩
    by_cases hi : i = A
    · subst hi; rw [if_pos rfl]; exact ct.master
    · rw [if_neg hi]; exact this i hi
  | firm A ρ f => exact ⟨A, f.only⟩

/-- C146: after any reset of a network with a master there is again exactly one, from `n` `Tick`s
after the clock has passed `7001 + 4 n` ms on, until devices are reset again. -/
theorem reset_recovers (c : ResetCourse net mid R d N) (hn : n ≤ 42) {k m : Nat}
    (h1 : ∃ A, OnlyMaster (net k) A) (hkm : k < m)
    (hm : (net k).now.toNat + (7001 + 4 * n) < (net m).now.toNat) (hN : m + n ≤ N)
    {j : Nat} (hj : m + n ≤ j) (hjN : j ≤ N) (hR : ∀ i, k < i → i < j → R i = []) :
    ∃ A, OnlyMaster (net j) A := by
  -- one master stays
  have stay : ∀ a A, k < a → OnlyMaster (net a) A → a ≤ j → OnlyMaster (net j) A := by
    intro a A ha hA haj
    have : ∀ m, a + m ≤ j → OnlyMaster (net (a + m)) A := by
      intro m
      induction m with
      | zero => exact fun _ => hA
      | succ m ih =>
        intro h
        exact reset_others_keeps_master c hn (k := a + m) (by omega) (ih (by omega))
          (by rw [hR (a + m) (by omega) (by omega)]; simp)
    have := this (j - a) (by omega)
    rwa [show a + (j - a) = j by omega] at this
  obtain ⟨A, hA⟩ := h1
  have hA0 : (net k).getNumMasters ≠ 0 := by rw [getNumMasters_one hA]; decide
  by_cases h : A ∈ R k
  · by_cases hz : ∀ i, k < i → i ≤ m → (net i).getNumMasters = 0
    · have := reset_master_replaced c hn hkm (by omega) hA0 hz
      omega
    · have : ∃ i, k < i ∧ i ≤ m ∧ (net i).getNumMasters ≠ 0 := Classical.byContradiction fun hno =>
        hz fun i h1 h2 => Classical.byContradiction fun e => hno ⟨i, h1, h2, e⟩
      obtain ⟨i, hi1, hi2, hi3⟩ := this
      -- the first one
      have first : ∀ i, k < i → i ≤ m → (net i).getNumMasters ≠ 0 →
          (net (k + 1)).getNumMasters ≠ 0 ∨
          ∃ b, k < b ∧ b < m ∧ (net b).getNumMasters = 0 ∧ (net (b + 1)).getNumMasters ≠ 0 := by
        intro i
        induction i with
        | zero => intro h; omega
        | succ i ih =>
          intro h2 h3 h4
          by_cases hki : k = i
          · subst hki; exact .inl h4
          · by_cases e : (net i).getNumMasters = 0
            · exact .inr ⟨i, by omega, by omega, e, h4⟩
            · exact ih (by omega) (by omega) e
      rcases first i hi1 hi2 hi3 with e | ⟨b, hb1, hb2, hb3, hb4⟩
      · -- the master cannot be replaced in the very next Tick
        obtain ⟨p, s⟩ := c.phase hn (k := k) (by omega)
        obtain ⟨p', _, _⟩ := c.phase_step hn (k := k) (by omega) p s
        have hRk : R k ≠ [] := fun e => by rw [e] at h; cases h
        cases p' with
        | lost _ _ _ l => exact absurd l.noMaster e
        | start B j' st hj' hm' =>
          have : j' = k := by omega
          rw [this] at hm'; exact absurd hm' hA0
        | contest B x T0 j' ct hm' ht h2 hj' hc =>
          have h1 := (c.calm k (by omega) hRk j' (by omega) (by omega)).1
          omega
        | firm B ρ f => exact ⟨B, stay (k + 1) B (by omega) f.only (by omega)⟩
      · obtain ⟨_, B, hB⟩ := reset_one_master c hn (k := b) (by omega) hb3 hb4
        exact ⟨B, stay _ B (by omega) hB (by omega)⟩
  · have hA' := reset_others_keeps_master c hn (k := k) (by omega) hA h
    exact ⟨A, stay (k + 1) A (by omega) hA' (by omega)⟩

end
end Firefly.Props
