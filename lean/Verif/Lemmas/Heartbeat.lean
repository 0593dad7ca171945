import Verif.Lemmas.History

/-! # Invariants of the heartbeat timer -/

namespace Firefly
open Spec

structure HbInv (t₀ : U32) (h : List Entry) (s : Node) : Prop where
  slaveLow : s.state = .slave → ∀ t, Sign t₀ h t → t.toNat + 5000 ≤ s.timers.heartbeat.toNat
  slaveHigh : s.state = .slave → ∃ t, Sign t₀ h t ∧ s.timers.heartbeat.toNat < t.toNat + 7000
  slaveOwn : s.state = .slave → ∀ e ∈ h, Entry.OwnHeartbeat e →
    (Entry.time e).toNat + 5000 ≤ s.timers.heartbeat.toNat
  masterEq : s.state = .master → ∃ e ∈ h, Entry.OwnHeartbeat e ∧
    s.timers.heartbeat.toNat = (Entry.time e).toNat + 1000
  masterOwn : s.state = .master → ∀ e ∈ h, Entry.OwnHeartbeat e →
    (Entry.time e).toNat + 1000 ≤ s.timers.heartbeat.toNat
  apart : h.Pairwise fun e e' => Entry.OwnHeartbeat e → Entry.OwnHeartbeat e' →
    (Entry.time e').toNat + 1000 < (Entry.time e).toNat

theorem sign_cons {t₀ e h t} : Sign t₀ (e :: h) t ↔
    Sign t₀ h t ∨ (Entry.time e = t ∧ (Entry.HeardMaster e ∨ Entry.Demoted e)) := by
  simp only [Sign, List.mem_cons, exists_eq_or_imp]
  grind

theorem sign_le {t₀ e h t} (c : Clock t₀ (e :: h)) (hs : Sign t₀ h t) :
    t.toNat ≤ (Entry.time e).toNat := by
  obtain ⟨_, _, h0, h1⟩ := c.cons
  rcases hs with rfl | ⟨e', he', rfl, _⟩
  · exact h0
  · exact h1 e' he'

theorem HbInv.step {t₀ h e} (inv : HbInv t₀ h e.pre) (c : Clock t₀ (e :: h))
    (st : Node.HbStep e) : HbInv t₀ (e :: h) e.post := by
  obtain ⟨_, cb, c0, c1⟩ := c.cons
  cases st with
  | keep hs ht ho hm =>
    have hnd : ¬ Entry.Demoted e := by
      rintro ⟨h1, h2⟩
      simp only [Node.getCurrentState] at h1 h2
      rw [hs, h1] at h2; cases h2
    refine ⟨?_, ?_, ?_, ?_, ?_, ?_⟩ <;> (try rw [hs]) <;> (try rw [ht])
    · intro h1 t h2
      rcases sign_cons.1 h2 with h2 | ⟨_, h2⟩
      · exact inv.slaveLow h1 t h2
      · rcases h2 with h2 | h2
        · exact absurd h2 (hm h1)
        · exact absurd h2 hnd
    · intro h1
      obtain ⟨t, h2, h3⟩ := inv.slaveHigh h1
      exact ⟨t, sign_cons.2 (Or.inl h2), h3⟩
    · intro h1 e' he'
      rcases List.mem_cons.1 he' with rfl | he'
      · exact fun h2 => absurd h2 ho
      · exact inv.slaveOwn h1 e' he'
    · intro h1
      obtain ⟨e', h2, h3⟩ := inv.masterEq h1
      exact ⟨e', List.mem_cons_of_mem _ h2, h3⟩
    · intro h1 e' he'
      rcases List.mem_cons.1 he' with rfl | he'
      · exact fun h2 => absurd h2 ho
      · exact inv.masterOwn h1 e' he'
    · exact List.pairwise_cons.2 ⟨fun e' _ h2 => absurd h2 ho, inv.apart⟩
  | rearm hs ht ht' ho hm =>
    refine ⟨?_, ?_, ?_, ?_, ?_, ?_⟩
    · intro _ t h2
      rcases sign_cons.1 h2 with h2 | ⟨rfl, _⟩
      · have := sign_le c h2; omega
      · exact ht
    · intro _
      exact ⟨_, sign_cons.2 (Or.inr ⟨rfl, Or.inl hm⟩), ht'⟩
    · intro _ e' he' h2
      rcases List.mem_cons.1 he' with rfl | he'
      · exact absurd h2 ho
      · have := c1 e' he'; omega
    · intro h1; rw [hs] at h1; cases h1
    · intro h1; rw [hs] at h1; cases h1
    · exact List.pairwise_cons.2 ⟨fun e' _ h2 => absurd h2 ho, inv.apart⟩
  | takeOver hs hs' h0 h1 ht ho hm =>
    have h1' := BitVec.lt_def.1 h1
    have ht' : e.post.timers.heartbeat.toNat = (Entry.time e).toNat + 1000 := by
      rw [ht]; exact Node.add_toNat cb (by decide)
    refine ⟨?_, ?_, ?_, ?_, ?_, ?_⟩
    · intro h1; rw [hs'] at h1; cases h1
    · intro h1; rw [hs'] at h1; cases h1
    · intro h1; rw [hs'] at h1; cases h1
    · intro _; exact ⟨e, List.mem_cons_self, ho, ht'⟩
    · intro _ e' he' h2
      rcases List.mem_cons.1 he' with rfl | he'
      · omega
      · have := c1 e' he'; omega
    · refine List.pairwise_cons.2 ⟨fun e' he' _ h2 => ?_, inv.apart⟩
      have := inv.slaveOwn hs e' he' h2
      omega
  | beat hs hs' h0 h1 ht ho hm =>
    have h1' := BitVec.lt_def.1 h1
    have ht' : e.post.timers.heartbeat.toNat = (Entry.time e).toNat + 1000 := by
      rw [ht]; exact Node.add_toNat cb (by decide)
    refine ⟨?_, ?_, ?_, ?_, ?_, ?_⟩
    · intro h1; rw [hs'] at h1; cases h1
    · intro h1; rw [hs'] at h1; cases h1
    · intro h1; rw [hs'] at h1; cases h1
    · intro _; exact ⟨e, List.mem_cons_self, ho, ht'⟩
    · intro _ e' he' h2
      rcases List.mem_cons.1 he' with rfl | he'
      · omega
      · have := c1 e' he'; omega
    · refine List.pairwise_cons.2 ⟨fun e' he' _ h2 => ?_, inv.apart⟩
      have := inv.masterOwn hs e' he' h2
      omega

theorem HbInv.init {t₀ rand junk junk'} (hb : t₀.toNat + 255000 < 2 ^ 32) :
    HbInv t₀ [] (Node.init t₀ rand junk junk') := by
  have e : (Node.init t₀ rand junk junk').timers.heartbeat =
      t₀ + BitVec.ofNat 32 (5000 + rand 0 % 2000) := by
    simp only [Node.init, Node.beginSlave, Node.armSlaveTimeout_eq]
  have e' := Node.timeout_toNat hb (rand 0)
  rw [← e] at e'
  refine ⟨?_, ?_, ?_, ?_, ?_, List.Pairwise.nil⟩
  · rintro _ t (rfl | ⟨e, he, _⟩)
    · omega
    · cases he
  · intro _; exact ⟨t₀, Or.inl rfl, by omega⟩
  · intro _ e he; cases he
  · intro h; cases h
  · intro h; cases h

theorem Run.step {plat t₀ e h s} (r : Run plat t₀ (e :: h) s) (c : Clock t₀ (e :: h))
    (p : ProperUse (e :: h)) : Node.HbStep e := by
  obtain ⟨r', hst, _⟩ := r.cons_inv
  exact Node.hb_step (s := e.pre) r'.wf (r'.instruction (ProperUse.cons p).1) hst c.cons.2.1

theorem Run.hbInv {plat t₀ h} : ∀ {s}, Run plat t₀ h s → Clock t₀ h → ProperUse h →
    HbInv t₀ h s := by
  induction h with
  | nil =>
    intro s r c _
    obtain ⟨_, _, _, rfl⟩ := r.nil_inv
    exact .init c.bound.1
  | cons e h ih =>
    intro s r c p
    obtain ⟨r', hst, rfl⟩ := r.cons_inv
    exact (ih r' c.cons.1 (ProperUse.cons p).1).step c (r.step c p)

end Firefly
