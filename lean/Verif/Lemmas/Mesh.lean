import Verif.Spec.Mesh

/-! # Helper lemmas for the mesh layer: the circular buffer holds the last five ids -/

namespace Firefly
open Spec

/-- The circular buffer represents the newest-first id list `h`. -/
def NM.Repr (m : NM) (h : List U16) : Prop :=
  m.idx.toNat < 5 ∧
    ∀ k, (hk : k < 5) → m.cache[(m.idx.toNat + 4 - k) % 5]'(Nat.mod_lt _ (by decide)) = h.getD k 0

theorem NM.repr_init : NM.init.Repr [] := by
  constructor
  · decide
  · intro k hk
    simp [NM.init]

theorem lastFive_eq (h : List U16) (k : Nat) (hk : k < 5) : (lastFive h)[k]? = some (h.getD k 0) := by
  unfold lastFive
  rw [List.getElem?_take_of_lt hk, List.getElem?_append]
  split
  · simp [List.getD, *]
  · rw [List.getElem?_replicate]
    rw [if_pos (by omega)]
    simp [List.getD]
    rw [List.getElem?_eq_none (by omega)]
    rfl

theorem lastFive_length (h : List U16) : (lastFive h).length = 5 := by
  simp [lastFive]

theorem mem_lastFive (h : List U16) (x : U16) :
    x ∈ lastFive h ↔ ∃ k, k < 5 ∧ h.getD k 0 = x := by
  rw [List.mem_iff_getElem?]
  constructor
  · rintro ⟨k, hk⟩
    have hlt : k < 5 := by
      have := (List.getElem?_eq_some_iff.1 hk).1
      rwa [lastFive_length] at this
    rw [lastFive_eq h k hlt] at hk
    exact ⟨k, hlt, by simpa using hk⟩
  · rintro ⟨k, hk, e⟩
    exact ⟨k, by rw [lastFive_eq h k hk, e]⟩

theorem NM.Repr.mem_iff {m : NM} {h : List U16} (hr : m.Repr h) (x : U16) :
    x ∈ m.cache ↔ x ∈ lastFive h := by
  rw [mem_lastFive]
  constructor
  · intro hx
    obtain ⟨j, hj, e⟩ := Vector.mem_iff_getElem.1 hx
    refine ⟨(m.idx.toNat + 4 - j) % 5, Nat.mod_lt _ (by decide), ?_⟩
    have := hr.2 ((m.idx.toNat + 4 - j) % 5) (Nat.mod_lt _ (by decide))
    rw [← this, ← e]
    congr 1
    have := hr.1
    omega
  · rintro ⟨k, hk, e⟩
    rw [← e, ← hr.2 k hk]
    exact Vector.getElem_mem _

theorem NM.Repr.add {m : NM} {h : List U16} (hr : m.Repr h) (x : U16) :
    ∃ m', m.addToRecentIdsCache x = .ok m' ∧ m'.Repr (x :: h) := by
  have h5 := hr.1
  have e : ((m.idx + 1) % kRecentIdsCacheSize).toNat = (m.idx.toNat + 1) % 5 := by
    have : (m.idx + 1).toNat = m.idx.toNat + 1 := by bv_omega
    rw [BitVec.toNat_umod, this]
    rfl
  refine ⟨_, by rw [NM.addToRecentIdsCache, dif_pos h5], ?_, ?_⟩
  · dsimp only; rw [e]; omega
  · intro k hk
    dsimp only
    have key : (((m.idx + 1) % kRecentIdsCacheSize).toNat + 4 - k) % 5
        = ((m.idx.toNat + 1) % 5 + 4 - k) % 5 := by rw [e]
    simp only [key, Vector.getElem_set]
    cases k with
    | zero => rw [if_pos (by omega)]; simp
    | succ k =>
      rw [if_neg (by omega)]
      rw [List.getD_cons_succ, ← hr.2 k (by omega)]
      congr 1
      omega

theorem NM.receive_none (m : NM) : m.receive none = .ok (none, [], m) := rfl

theorem NM.receive_dup {m : NM} {p : Packet} (hp : p.id ∈ m.cache) :
    m.receive (some p) = .ok (none, [], m) := by
  simp [NM.receive, Vector.mem_toList_iff, hp]

theorem NM.Repr.receive_new {m : NM} {h : List U16} (hr : m.Repr h) {p : Packet}
    (hp : p.id ∉ m.cache) :
    ∃ m', m.receive (some p) = .ok (some p, [p], m') ∧ m'.Repr (p.id :: h) := by
  obtain ⟨m', e, hr'⟩ := hr.add p.id
  exact ⟨m', by simp [NM.receive, Vector.mem_toList_iff, hp, e, bind, Except.bind, pure, Except.pure], hr'⟩

/-- Whatever `receive` does, its outcome has one of two shapes. -/
theorem NM.receive_cases {m : NM} {rx d out m'} (e : m.receive rx = .ok (d, out, m')) :
    (d = none ∧ out = [] ∧ m' = m ∧ ∀ p, rx = some p → p.id ∈ m.cache) ∨
    (∃ p, rx = some p ∧ p.id ∉ m.cache ∧ d = some p ∧ out = [p] ∧
      m.addToRecentIdsCache p.id = .ok m') := by
  cases rx with
  | none =>
    simp [NM.receive] at e
    left; obtain ⟨rfl, rfl, rfl⟩ := e; simp
  | some p =>
    simp only [NM.receive, Vector.mem_toList_iff] at e
    split at e
    · left; rename_i hm; simp at e; obtain ⟨rfl, rfl, rfl⟩ := e; simp [hm]
    · rename_i hm
      right
      refine ⟨p, rfl, hm, ?_⟩
      cases ha : m.addToRecentIdsCache p.id with
      | error f => simp [ha, bind, Except.bind] at e
      | ok m'' =>
        simp [ha, bind, Except.bind, pure, Except.pure] at e
        simp [e]

/-- Whatever `send` does, it transmits the packet with its new id and records the id. -/
theorem NM.send_cases {plat : Platform} {m : NM} {p : Packet} {r p' out m' r'}
    (e : m.send plat p r = .ok (p', out, m', r')) :
    p' = { p with id := p'.id } ∧ out = [p'] ∧ m.addToRecentIdsCache p'.id = .ok m' ∧
      randomRange plat 2 0xFFFF r = .ok (p'.id, r') := by
  simp only [NM.send, bind, Except.bind] at e
  cases hr : randomRange plat 2 0xFFFF r with
  | error f => rw [hr] at e; simp at e
  | ok v =>
    obtain ⟨id, r''⟩ := v
    rw [hr] at e
    dsimp only at e
    cases ha : m.addToRecentIdsCache id with
    | error f => simp [ha] at e
    | ok m'' =>
      simp [ha, pure, Except.pure] at e
      obtain ⟨rfl, rfl, rfl, rfl⟩ := e
      simp [ha]

theorem NM.add_det {m m₁ m₂ : NM} {x : U16} (h₁ : m.addToRecentIdsCache x = .ok m₁)
    (h₂ : m.addToRecentIdsCache x = .ok m₂) : m₁ = m₂ := by
  rw [h₁] at h₂; exact Except.ok.inj h₂

/-- Along every history the buffer represents the transmitted ids. -/
theorem MeshRun.repr {plat h m} (hr : MeshRun plat h m) : m.Repr (transmittedIds h) := by
  induction hr with
  | boot => exact NM.repr_init
  | send p r _ e ih =>
    obtain ⟨-, e2, e3, -⟩ := NM.send_cases e
    obtain ⟨m'', e4, hr'⟩ := ih.add _
    have := NM.add_det e3 e4
    subst this
    simpa [transmittedIds, e2] using hr'
  | receive rx _ e ih =>
    rcases NM.receive_cases e with ⟨-, rfl, rfl, -⟩ | ⟨p, -, -, -, rfl, e3⟩
    · simpa [transmittedIds] using ih
    · obtain ⟨m'', e4, hr'⟩ := ih.add p.id
      have := NM.add_det e3 e4
      subst this
      simpa [transmittedIds] using hr'

end Firefly
