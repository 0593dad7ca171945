import Verif.Lemmas.FakeClean

/-! # Several masters in the network of the integration tests -/

namespace Firefly
open Spec FakeNet

/-- A packet by which masters compete. -/
def Rivalry (q : Packet) : Prop := q.type = .heartbeat ∨ q.type = .claimMaster

namespace Node

theorem Acts.good {now T T' l} (h : Acts now T T' l) (hg : ∀ q ∈ l, Rivalry q) :
    (l = [] ∧ T' = T) ∨ ∃ q : Packet, l = [q] ∧ q.type = .heartbeat ∧ Due now T.heartbeat ∧
      T'.heartbeat = now + 1000 := by
  cases h with
  | quiet => exact .inl ⟨rfl, rfl⟩
  | beat q d e => exact .inr ⟨q, rfl, e, d, rfl⟩
  | change q _ _ e =>
    rcases hg q (by simp) with h | h <;> rw [e] at h <;> cases h
  | «repeat» q _ _ _ e =>
    rcases hg q (by simp) with h | h <;> rw [e] at h <;> cases h

theorem not_due {now T : U32} (h : now.toNat ≤ T.toNat) : ¬ Due now T := by
  rintro ⟨_, e⟩
  rw [BitVec.lt_def] at e
  omega

/-- A master that hears nothing new and does not instruct. -/
theorem Idle2.good {now} {s s' : Node} {m} (h : Idle2 now s s' m) (hs : s.state = .master)
    (hw : now.toNat + 255000 < 2 ^ 32) (hg : ∀ q ∈ m, Rivalry q) :
    (m = [] ∧ s'.timers.heartbeat = s.timers.heartbeat) ∨
    ∃ q : Packet, m = [q] ∧ q.type = .heartbeat ∧
      s.timers.heartbeat.toNat < now.toNat ∧ s'.timers.heartbeat.toNat = now.toNat + 1000 := by
  obtain ⟨a1, _, _⟩ := sums hw
  obtain ⟨s₁, l₁, l₂, c1, c2, rfl⟩ := h
  have g1 : ∀ q ∈ l₁, Rivalry q := fun q hq => hg q (List.mem_append_left _ hq)
  have g2 : ∀ q ∈ l₂, Rivalry q := fun q hq => hg q (List.mem_append_right _ hq)
  have hs1 := c1.states.1 hs
  cases c1 with
  | slave e | takes _ _ e => rw [hs] at e; cases e
  | acts _ _ _ e A1 =>
    cases c2 with
    | slave e | takes _ _ e => rw [hs1] at e; cases e
    | acts _ _ _ e A2 =>
      rcases A1.good g1 with ⟨rfl, t1⟩ | ⟨q, rfl, hq, d, t1⟩
      · rcases A2.good g2 with ⟨rfl, t2⟩ | ⟨q, rfl, hq, d, t2⟩
        · exact .inl ⟨rfl, by rw [t2, t1]⟩
        · rw [t1] at d
          exact .inr ⟨q, rfl, hq, BitVec.lt_def.1 d.2, by rw [t2, a1]⟩
      · rcases A2.good g2 with ⟨rfl, t2⟩ | ⟨q, rfl, hq, d2, t2⟩
        · exact .inr ⟨q, rfl, hq, BitVec.lt_def.1 d.2, by rw [t2, t1, a1]⟩
        · rw [t1] at d2
          exact absurd d2 (not_due (by rw [a1]; omega))

theorem Idle2.slave {now} {s s' : Node} {m} (h : Idle2 now s s' m) (hs : s.state = .slave)
    (ht : now.toNat ≤ s.timers.heartbeat.toNat) : s' = s ∧ m = [] := by
  have key : ∀ {s' l}, Idle now s s' l → s' = s ∧ l = [] := by
    intro s' l c
    cases c with
    | slave => exact ⟨rfl, rfl⟩
    | takes _ _ _ d => exact absurd d (not_due ht)
    | acts _ _ e => rw [hs] at e; cases e
  obtain ⟨s₁, l₁, l₂, c1, c2, rfl⟩ := h
  obtain ⟨rfl, rfl⟩ := key c1
  obtain ⟨rfl, rfl⟩ := key c2
  exact ⟨rfl, rfl⟩

/-- A slave that stays. -/
theorem Idle.stays {now} {s s' : Node} {l} (h : Idle now s s' l) (hs : s.state = .slave)
    (ht : now.toNat ≤ s.timers.heartbeat.toNat) : s' = s ∧ l = [] := by
  cases h with
  | slave => exact ⟨rfl, rfl⟩
  | takes _ _ _ d => exact absurd d (not_due ht)
  | acts _ _ e => rw [hs] at e; cases e

/-- A device that hears a claim. -/
theorem Takes2.claim {now p} {s s' : Node} {m} (h : Takes2 now p s s' m)
    (hp : p.type = .claimMaster) :
    s'.state = .slave ∧ m = [] ∧ now.toNat + 5000 ≤ s'.timers.heartbeat.toNat := by
  obtain ⟨s₁, l₁, l₂, c1, c2, rfl⟩ := h
  cases c1 with
  | hears _ e _ _ t | resigns _ e _ _ t =>
    obtain ⟨rfl, rfl⟩ := c2.stays e (by omega)
    exact ⟨e, rfl, t⟩
  | notes _ _ _ e | follows _ _ _ e => exact absurd (.inr hp) e
  | claims _ _ _ _ e => rw [hp] at e; cases e

/-- A device that hears a heartbeat. -/
theorem Takes2.heartbeat {now p} {s s' : Node} {m} (h : Takes2 now p s s' m)
    (hw : now.toNat + 255000 < 2 ^ 32)
    (hp : p.type = .heartbeat) (hg : ∀ q ∈ m, Rivalry q) :
    (s'.state = .slave ∧ m = [] ∧ now.toNat + 5000 ≤ s'.timers.heartbeat.toNat) ∨
    (s.state = .master ∧ s'.state = .master ∧ ∃ q, m.getLast? = some q ∧
      (q.type = .claimMaster ∧ s'.timers.heartbeat = s.timers.heartbeat ∨
        q.type = .heartbeat ∧ s.timers.heartbeat.toNat < now.toNat ∧
          s'.timers.heartbeat.toNat = now.toNat + 1000)) := by
  obtain ⟨a1, _, _⟩ := sums hw
  obtain ⟨s₁, l₁, l₂, c1, c2, rfl⟩ := h
  have g2 : ∀ q ∈ l₂, Rivalry q := fun q hq => hg q (List.mem_append_right _ hq)
  cases c1 with
  | hears _ e _ _ t | resigns _ e _ _ t =>
    obtain ⟨rfl, rfl⟩ := c2.stays e (by omega)
    exact .inl ⟨e, rfl, t⟩
  | notes _ _ _ e | follows _ _ _ e => exact absurd (.inl hp) e
  | claims q hs e _ _ hq t =>
    cases c2 with
    | slave e' | takes _ _ e' => rw [e] at e'; cases e'
    | acts _ _ _ e' A =>
      refine .inr ⟨hs, e', ?_⟩
      rcases A.good g2 with ⟨rfl, t2⟩ | ⟨r, rfl, hr, d, t2⟩
      · exact ⟨q, rfl, .inl ⟨hq, by rw [t2, t]⟩⟩
      · rw [t] at d
        exact ⟨r, rfl, .inr ⟨hr, BitVec.lt_def.1 d.2, by rw [t2, a1]⟩⟩

end Node

namespace FakeNet
open Node

/-- The last packet of the master `i` is `q`, and still on its way from there. -/
def Pending {n} (net : FakeNet n) (i : Fin n) (q : Packet) : Prop :=
  Mine net i q ∧
    ((net.radio i).sent = some q ∨ ((net.radio i).sent = none ∧ net.packet = some q))

theorem Mine.one {n} {net : FakeNet n} {i k : Fin n} {q : Packet} (h : Mine net i q)
    (h' : Mine net k q) : i = k := by
  by_cases e : k = i
  · exact e.symm
  · obtain ⟨l, hl⟩ := h'.last
    exact absurd (memory_recent hl (by simp) (by simp)) (h.unknown k e)

theorem Clean.notMine {n} {net : FakeNet n} {t s₀ cur} (c : Clean net t s₀ cur) {i : Fin n}
    (hex : ∃ j : Fin n, j ≠ i) {q : Packet} (hq : q.id ∈ cur) : ¬ Mine net i q := by
  intro h
  obtain ⟨j, hj⟩ := hex
  obtain ⟨l, S, e1, e2, e3⟩ := c.recent _ hq j
  exact h.unknown j hj (memory_recent e1 e3.le e2)

theorem pending_iff {n} {net net' : FakeNet n} {t s₀ cur rx} (r : Round net net' rx)
    (c : Clean net' t s₀ cur) (hex : ∀ i : Fin n, ∃ j : Fin n, j ≠ i)
    (h7 : ∀ i, ∀ q, Waiting net net' i = some q → q.id ∈ cur ∨ Mine net' i q) {i : Fin n}
    {q : Packet} : Pending net' i q ↔ Waiting net net' i = some q ∧ Mine net' i q := by
  constructor
  · rintro ⟨hm, h | ⟨_, h⟩⟩
    · rcases taken_sent r i with e | e
      · rw [e] at h; cases h
      · exact ⟨by rw [← e]; exact h, hm⟩
    · rcases taken_cases r with ⟨e, _⟩ | ⟨k, p, e1, e2, _⟩
      · rw [e] at h; cases h
      · rw [e1] at h; cases h
        rcases h7 k q e2 with hq | hq
        · exact absurd hm (c.notMine (hex i) hq)
        · rw [hm.one hq]; exact ⟨e2, hq⟩
  · rintro ⟨h, hm⟩
    refine ⟨hm, ?_⟩
    rcases taken_cases r with ⟨_, _, e⟩ | ⟨k, p, e1, e2, e3, e4⟩
    · rw [e i] at h; cases h
    · by_cases hi : i = k
      · subst hi
        rw [e2] at h; cases h
        exact .inr ⟨e3, e1⟩
      · rw [e4 i hi]; exact .inl h

open Classical in
/-- 1 if a heartbeat of `i` is still to come in the second from `s₁` on. -/
noncomputable def hot {n} (net : FakeNet n) (s₁ : Nat) (i : Fin n) : Nat :=
  if (net.node i).state = .master ∧ ((net.node i).timers.heartbeat.toNat < s₁ + 1000 ∨
    ∃ q, Pending net i q ∧ q.type = .heartbeat) then 1 else 0

theorem hot_le {n} (net : FakeNet n) (s₁ : Nat) (i : Fin n) : hot net s₁ i ≤ 1 := by
  unfold hot; split <;> omega

theorem hot_mono {n} {net net' : FakeNet n} {s₁ : Nat} {i : Fin n}
    (h : (net'.node i).state = .master → (net'.node i).timers.heartbeat.toNat < s₁ + 1000 ∨
      (∃ q, Pending net' i q ∧ q.type = .heartbeat) → (net.node i).state = .master ∧
        ((net.node i).timers.heartbeat.toNat < s₁ + 1000 ∨
          ∃ q, Pending net i q ∧ q.type = .heartbeat)) : hot net' s₁ i ≤ hot net s₁ i := by
  unfold hot
  split
  · rename_i h'
    rw [if_pos (h h'.1 h'.2)]
    exact Nat.le_refl _
  · exact Nat.zero_le _

/-- `s₁` is when the dispute began: a heartbeat was heard.  All masters but `B` have a heartbeat or
claim on its way. -/
structure Dispute {n} (net : FakeNet n) (t s₀ : Nat) (x : U16) (s₁ : Nat) (B : Fin n) : Prop where
  clean : Clean net t s₀ (some x)
  master : (net.node B).state = .master
  slaves : ∀ i, (net.node i).state = .slave → s₁ + 5000 ≤ (net.node i).timers.heartbeat.toNat
  others : ∀ i, i ≠ B → (net.node i).state = .master → ∃ q, Pending net i q
  good : ∀ i q, Pending net i q → Rivalry q ∧
    (q.type = .heartbeat → s₁ + 1000 ≤ (net.node i).timers.heartbeat.toNat)
  time : t ≤ s₀ + n + 1
  since : s₁ ≤ s₀
  rival : ∃ i, i ≠ B ∧ (net.node i).state = .master

/-- `A` is the only master, and the others heard from it at `t`. -/
structure Won {n} (net : FakeNet n) (t : Nat) (A : Fin n) : Prop where
  clean : ∃ x, Clean net t t (some x)
  master : (net.node A).state = .master
  slaves : ∀ i, i ≠ A → (net.node i).state = .slave ∧
    t + 5000 ≤ (net.node i).timers.heartbeat.toNat

/-- The packet the devices hear is of a master. -/
structure Speaks {n} (net : FakeNet n) (B : Fin n) (q : Packet) : Prop where
  packet : net.packet = some q
  mine : Mine net B q
  slot : (net.radio B).sent = none

theorem two {n} {B i : Fin n} (h : i ≠ B) (j : Fin n) : ∃ k : Fin n, k ≠ j := by
  by_cases e : j = B
  · exact ⟨i, by rw [e]; exact h⟩
  · exact ⟨B, Ne.symm e⟩

/-- A claim ends it. -/
theorem Clean.claimed {n} {net net' : FakeNet n} {t s₀ cur} (c : Clean net t s₀ cur)
    (r : Round net net' fun _ => net.air) (f : Fresh net net') (ha : net'.Able)
    (ht : net.now.toNat = t + 1) (hw : net.now.toNat + 255000 < 2 ^ 32)
    {B : Fin n} {q : Packet} (h : Speaks net B q) (hq : q.type = .claimMaster) :
    Won net' (t + 1) B := by
  obtain ⟨p, pid, pty, hIB, hT, hWB, hW, hcase, hc⟩ := c.new r f ha ht hw h.packet h.mine h.slot
  refine ⟨⟨q.id, hc⟩, hIB.states.1 h.mine.master, fun i hi => ?_⟩
  have := (hT i hi).claim (pty.trans hq)
  exact ⟨this.1, by omega⟩

/-- A heartbeat begins a dispute, or continues it. -/
theorem Clean.disputed {n} {net net' : FakeNet n} {t s₀ cur} (c : Clean net t s₀ cur)
    (r : Round net net' fun _ => net.air) (f : Fresh net net') (ha : net'.Able)
    (ht : net.now.toNat = t + 1) (hw : net.now.toNat + 255000 < 2 ^ 32)
    {B : Fin n} {q : Packet} (h : Speaks net B q) (hq : q.type = .heartbeat)
    (hg : ∀ i, ∀ p ∈ own net net' i, Rivalry p) {s₁ : Nat} (h1 : s₁ ≤ t + 1) (h2 : t + 1 ≤ s₁ + 1000) :
    Won net' (t + 1) B ∨ (Dispute net' (t + 1) (t + 1) q.id s₁ B ∧
      (∀ i, i ≠ B → hot net' s₁ i ≤ hot net s₁ i) ∧
      (s₁ + 1000 ≤ (net.node B).timers.heartbeat.toNat → t + 1 < s₁ + 1000 →
        hot net' s₁ B = 0)) := by
  obtain ⟨p, pid, pty, hIB, hT, hWB, hW, hcase, hc⟩ := c.new r f ha ht hw h.packet h.mine h.slot
  have hm := hIB.states.1 h.mine.master
  have hear := fun i hi => (hT i hi).heartbeat hw (pty.trans hq) (hg i)
  have goodB := hIB.good h.mine.master hw (hg B)
  by_cases hr : ∃ i, i ≠ B ∧ (net'.node i).state = .master
  · right
    obtain ⟨i₀, hi₀, hm₀⟩ := hr
    have hex := two hi₀
    have h7 : ∀ i, ∀ q', Waiting net net' i = some q' → q'.id ∈ some q.id ∨ Mine net' i q' := by
      intro i q' hq'
      rcases hcase i q' hq' with ⟨_, e, _⟩ | e
      · left; rw [e, pid]; rfl
      · exact .inr e.2
    have hpi : ∀ {i q'}, Pending net' i q' ↔ Waiting net net' i = some q' ∧ Mine net' i q' :=
      pending_iff r hc hex h7
    -- what is pending was sent just now
    have hpo : ∀ i q', Pending net' i q' → q' ∈ own net net' i ∧
        (own net net' i).getLast? = some q' := by
      intro i q' hp
      obtain ⟨e1, e2⟩ := hpi.1 hp
      rcases hcase i q' e1 with ⟨_, e, _⟩ | ⟨e, _⟩
      · exact absurd e2 (hc.notMine (hex i) (by rw [e, pid]; rfl))
      · refine ⟨e, ?_⟩
        by_cases hi : i = B
        · subst hi; rw [← hWB]; exact e1
        · rw [hW i hi] at e1
          cases ho : own net net' i with
          | nil => rw [ho] at e; cases e
          | cons a m => rw [ho, List.getLast?_cons_cons] at e1; exact e1
    have hlate : ∀ i q', Pending net' i q' → q'.type = .heartbeat →
        (net.node i).state = .master ∧ (net.node i).timers.heartbeat.toNat < net.now.toNat ∧
          (net'.node i).timers.heartbeat.toNat = net.now.toNat + 1000 := by
      intro i q' hp hty
      obtain ⟨e1, e2⟩ := hpo i q' hp
      by_cases hi : i = B
      · subst hi
        rcases goodB with ⟨e, _⟩ | ⟨a, e, ea, t1, t2⟩
        · rw [e] at e1; cases e1
        · exact ⟨h.mine.master, t1, t2⟩
      · rcases hear i hi with ⟨_, e, _⟩ | ⟨hs, _, a, e, ea⟩
        · rw [e] at e1; cases e1
        · rw [e2] at e; cases e
          rcases ea with ⟨ea, _⟩ | ⟨_, t1, t2⟩
          · rw [hty] at ea; cases ea
          · exact ⟨hs, t1, t2⟩
    refine ⟨⟨hc, hm, fun i hs => ?_, fun i hi hs => ?_, fun i q' hp => ⟨hg i q' (hpo i q' hp).1, ?_⟩,
      by omega, h1, i₀, hi₀, hm₀⟩, fun i hi => hot_mono fun hs hh => ?_, fun hB hlt => ?_⟩
    · by_cases hi : i = B
      · subst hi; rw [hm] at hs; cases hs
      · rcases hear i hi with ⟨_, _, e⟩ | ⟨_, e, _⟩
        · omega
        · rw [hs] at e; cases e
    · rcases hear i hi with ⟨e, _⟩ | ⟨_, _, a, e, _⟩
      · rw [hs] at e; cases e
      · have hmem := List.mem_of_getLast? e
        have hWi : Waiting net net' i = some a := by
          rw [hW i hi]
          cases ho : own net net' i with
          | nil => rw [ho] at e; cases e
          | cons b m => rw [List.getLast?_cons_cons, ← ho]; exact e
        rcases hcase i a hWi with ⟨e', _⟩ | ⟨_, e'⟩
        · rw [e'] at e; cases e
        · exact ⟨a, hpi.2 ⟨hWi, e'⟩⟩
    · intro hty
      have := (hlate i q' hp hty).2.2
      omega
    · rcases hear i hi with ⟨e, _⟩ | ⟨e1, _, a, e2, ea⟩
      · rw [hs] at e; cases e
      · refine ⟨e1, ?_⟩
        rcases ea with ⟨_, ea⟩ | ⟨_, ea, _⟩
        · rcases hh with hh | ⟨q', hp, hty⟩
          · rw [← ea]; exact .inl hh
          · have := (hlate i q' hp hty).2.1
            left; omega
        · left; omega
    · unfold hot
      rw [if_neg]
      rintro ⟨_, hh | ⟨q', hp, hty⟩⟩
      · rcases goodB with ⟨_, e⟩ | ⟨_, _, _, e, _⟩
        · rw [e] at hh; omega
        · omega
      · have := (hlate B q' hp hty).2.1
        omega
  · left
    refine ⟨⟨q.id, hc⟩, hm, fun i hi => ?_⟩
    rcases hear i hi with ⟨e, _, e'⟩ | ⟨_, e, _⟩
    · exact ⟨e, by omega⟩
    · exact absurd ⟨i, hi, e⟩ hr

theorem tot_less {n} {g g' : Fin n → Nat} {k : Fin n} (h : ∀ i, i ≠ k → g' i ≤ g i)
    (h1 : g k = 1) (h0 : g' k = 0) : tot g' + 1 ≤ tot g := by
  have e : tot g = tot (fun i => if i = k then 0 else g i) + 1 :=
    tot_drop (k := k) (by rw [if_pos rfl, h1]) fun i hi => by rw [if_neg hi]
  have l : tot g' ≤ tot (fun i => if i = k then 0 else g i) := tot_le fun i => by
    by_cases hi : i = k
    · rw [if_pos hi, hi, h0]; exact Nat.le_refl _
    · rw [if_neg hi]; exact h i hi
  omega

/-- How long it may still take: each heartbeat to come costs one round of all radios. -/
def Budget {n} (net : FakeNet n) (s₀ s₁ : Nat) : Prop :=
  s₀ + (n + 2) * tot (hot net s₁) ≤ s₁ + (n + 2) * n

/-- In a dispute, nothing new is heard. -/
theorem Dispute.known {n} {net net' : FakeNet n} {t s₀ x s₁} {B : Fin n}
    (d : Dispute net t s₀ x s₁ B) (hn : n ≤ 900) (r : Round net net' fun _ => net.air)
    (f : Fresh net net') (ha : net'.Able) (ht : net.now.toNat = t + 1)
    (hw : net.now.toNat + 255000 < 2 ^ 32) (hg : ∀ i, ∀ p ∈ own net net' i, Rivalry p)
    (hlt : t + 1 < s₁ + 1000) {q : Packet} (hp : net.packet = some q)
    (hq : q.id ∈ some x) (hq' : rel (fun i => (net.radio i).sent) q.id + t ≤ s₀ + n) :
    Dispute net' (t + 1) s₀ x s₁ B ∧ ∀ i, hot net' s₁ i ≤ hot net s₁ i := by
  obtain ⟨hI, hW, hcase, hc⟩ := d.clean.known hn r f ha ht hw
    (fun p hp' => by rw [hp] at hp'; cases hp'; exact ⟨hq, hq'⟩)
    (fun e => by rw [hp] at e; cases e)
  rw [if_neg (by rw [hp]; simp)] at hc
  obtain ⟨i₀, hi₀, hm₀⟩ := d.rival
  have hex := two hi₀
  have hs1 := d.since
  have hs2 := d.clean.since
  have hpi : ∀ {i q'}, Pending net' i q' ↔ Waiting net net' i = some q' ∧ Mine net' i q' :=
    pending_iff r hc hex fun i q' e => by
      rcases hcase i q' e with ⟨_, _, h⟩ | ⟨_, _, _, h⟩ | ⟨_, h⟩
      · exact .inl h
      · exact .inr h
      · exact .inr h
  have hsl : ∀ i, (net.node i).state = .slave →
      net'.node i = net.node i ∧ own net net' i = [] := fun i h =>
    (hI i).slave h (by have := d.slaves i h; omega)
  have hback : ∀ i, (net'.node i).state = .master → (net.node i).state = .master := by
    intro i h
    cases e : (net.node i).state with
    | master => rfl
    | slave => rw [(hsl i e).1, e] at h; cases h
  have hcases : ∀ i q', Pending net' i q' →
      (own net net' i = [] ∧ Pending net i q') ∨ q' ∈ own net net' i := by
    intro i q' h
    obtain ⟨e1, e2⟩ := hpi.1 h
    rcases hcase i q' e1 with ⟨_, _, h⟩ | ⟨h1, h2, h3, _⟩ | ⟨h, _⟩
    · exact absurd e2 (hc.notMine (hex i) h)
    · exact .inl ⟨h1, h3, .inl h2⟩
    · exact .inr h
  refine ⟨⟨hc, (hI B).states.1 d.master, fun i h => ?_, fun i hi h => ?_, fun i q' h => ?_, by omega,
    hs1, i₀, hi₀, (hI i₀).states.1 hm₀⟩, fun i => hot_mono fun h hh => ?_⟩
  · have e := ((hI i).states.2 h).1
    rw [e] at h ⊢
    exact d.slaves i h
  · have hm := hback i h
    rcases (hI i).good hm hw (hg i) with ⟨e, _⟩ | ⟨a, e, _⟩
    · obtain ⟨a, h1, h2⟩ := d.others i hi hm
      have hslot : (net.radio i).sent = some a := by
        rcases h2 with h2 | ⟨_, h2⟩
        · exact h2
        · rw [hp] at h2; cases h2
          exact absurd h1 (d.clean.notMine (hex i) hq)
      have hw' : Waiting net net' i = some a := by rw [hW i, e, hslot]; rfl
      rcases hcase i a hw' with ⟨_, _, h⟩ | ⟨_, _, _, h⟩ | ⟨h, _⟩
      · exact absurd h1 (d.clean.notMine (hex i) h)
      · exact ⟨a, hpi.2 ⟨hw', h⟩⟩
      · rw [e] at h; cases h
    · have hw' : Waiting net net' i = some a := by rw [hW i, e]; rfl
      rcases hcase i a hw' with ⟨h, _⟩ | ⟨h, _⟩ | ⟨_, h⟩
      · rw [e] at h; cases h
      · rw [e] at h; cases h
      · exact ⟨a, hpi.2 ⟨hw', h⟩⟩
  · have hm := hback i h.1.master
    rcases (hI i).good hm hw (hg i) with ⟨e, e'⟩ | ⟨a, e, _, _, e'⟩
    · rcases hcases i q' h with ⟨_, h'⟩ | h'
      · rw [e']; exact d.good i q' h'
      · rw [e] at h'; cases h'
    · rcases hcases i q' h with ⟨h', _⟩ | h'
      · rw [e] at h'; cases h'
      · exact ⟨hg i q' h', fun _ => by omega⟩
  · have hm := hback i h
    refine ⟨hm, ?_⟩
    rcases (hI i).good hm hw (hg i) with ⟨e, e'⟩ | ⟨a, e, _, e', _⟩
    · rw [e'] at hh
      rcases hh with hh | ⟨q', h1, h2⟩
      · exact .inl hh
      · rcases hcases i q' h1 with ⟨_, h'⟩ | h'
        · exact .inr ⟨q', h', h2⟩
        · rw [e] at h'; cases h'
    · left; omega

/-- A tick of a dispute. -/
theorem Dispute.tick {n} {net net' : FakeNet n} {t s₀ x s₁} {B : Fin n}
    (d : Dispute net t s₀ x s₁ B) (b : Budget net s₀ s₁) (hn : (n + 1) * (n + 2) ≤ 999)
    (r : Round net net' fun _ => net.air)
    (f : Fresh net net') (ha : net'.Able) (ht : net.now.toNat = t + 1)
    (hw : net.now.toNat + 255000 < 2 ^ 32) (hg : ∀ i, ∀ p ∈ own net net' i, Rivalry p) :
    (∃ A, Won net' (t + 1) A) ∨
      ∃ s₀' x' B', Dispute net' (t + 1) s₀' x' s₁ B' ∧ Budget net' s₀' s₁ := by
  have hn' : n ≤ 900 := by
    have : (n + 1) * 2 ≤ (n + 1) * (n + 2) := Nat.mul_le_mul_left _ (by omega)
    omega
  have e1 : (n + 1) * (n + 2) = (n + 2) * n + (n + 2) := by
    rw [Nat.mul_comm, Nat.mul_add, Nat.mul_one]
  have time := d.time
  have since := d.since
  have b' := b
  unfold Budget at b'
  have hlt : t + 1 < s₁ + 1000 := by omega
  rcases d.clean.air with ⟨h1, h2⟩ | ⟨q, hp, ⟨hq, hq'⟩ | ⟨C, hC, hs⟩⟩
  · obtain ⟨i, hi, hm⟩ := d.rival
    obtain ⟨p, _, h | ⟨_, h⟩⟩ := d.others i hi hm
    · rw [h2 i] at h; cases h
    · rw [h1] at h; cases h
  · obtain ⟨h1, h2⟩ := d.known hn' r f ha ht hw hg hlt hp hq hq'
    refine .inr ⟨s₀, x, B, h1, ?_⟩
    have := Nat.mul_le_mul_left (n + 2) (tot_le h2)
    unfold Budget
    omega
  · have hP : Pending net C q := ⟨hC, .inr ⟨hs, hp⟩⟩
    obtain ⟨g1, g2⟩ := d.good C q hP
    rcases g1 with hty | hty
    · rcases d.clean.disputed r f ha ht hw ⟨hp, hC, hs⟩ hty hg (s₁ := s₁) (by
          have := d.clean.since; omega) (by omega) with h | ⟨h1, h2, h3⟩
      · exact .inl ⟨C, h⟩
      · refine .inr ⟨t + 1, q.id, C, h1, ?_⟩
        have hc1 : hot net s₁ C = 1 := by
          unfold hot; rw [if_pos ⟨hC.master, .inr ⟨q, hP, hty⟩⟩]
        have := Nat.mul_le_mul_left (n + 2) (tot_less h2 hc1 (h3 (g2 hty) hlt))
        rw [Nat.mul_add, Nat.mul_one] at this
        unfold Budget
        omega
    · exact .inl ⟨C, d.clean.claimed r f ha ht hw ⟨hp, hC, hs⟩ hty⟩

/-- A heartbeat that is heard begins it. -/
theorem Clean.begin {n} {net net' : FakeNet n} {t s₀ cur} (c : Clean net t s₀ cur)
    (r : Round net net' fun _ => net.air) (f : Fresh net net') (ha : net'.Able)
    (ht : net.now.toNat = t + 1) (hw : net.now.toNat + 255000 < 2 ^ 32)
    {B : Fin n} {q : Packet} (h : Speaks net B q) (hq : q.type = .heartbeat)
    (hg : ∀ i, ∀ p ∈ own net net' i, Rivalry p) :
    (∃ A, Won net' (t + 1) A) ∨
      ∃ s₀' x' B', Dispute net' (t + 1) s₀' x' (t + 1) B' ∧ Budget net' s₀' (t + 1) := by
  rcases c.disputed r f ha ht hw h hq hg (s₁ := t + 1) (by omega) (by omega) with h | ⟨h1, _⟩
  · exact .inl ⟨B, h⟩
  · refine .inr ⟨t + 1, q.id, B, h1, ?_⟩
    have := tot_bound (hot_le net' (t + 1))
    have := Nat.mul_le_mul_left (n + 2) this
    rw [Nat.mul_one] at this
    unfold Budget
    omega

/-- It is over in time. -/
theorem Dispute.soon {n} {net : FakeNet n} {t s₀ x s₁} {B : Fin n}
    (d : Dispute net t s₀ x s₁ B) (b : Budget net s₀ s₁) : t < s₁ + (n + 1) * (n + 2) := by
  have e1 : (n + 1) * (n + 2) = (n + 2) * n + (n + 2) := by
    rw [Nat.mul_comm, Nat.mul_add, Nat.mul_one]
  have time := d.time
  unfold Budget at b
  omega

end FakeNet
end Firefly
