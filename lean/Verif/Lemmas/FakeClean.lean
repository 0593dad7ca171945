import Verif.Lemmas.FakeMany

/-! # The network of the integration tests with any number of masters -/

namespace Firefly
open Spec FakeNet

namespace Node

theorem Idle.beat {now} {s s' : Node} {l} {B : Nat} (h : Idle now s s' l)
    (hw : now.toNat + 255000 < 2 ^ 32) (hB : now.toNat + 1000 ≤ B)
    (b : s.state = .master → 1000 ≤ s.timers.heartbeat.toNat ∧ s.timers.heartbeat.toNat ≤ B) :
    s'.state = .master → 1000 ≤ s'.timers.heartbeat.toNat ∧ s'.timers.heartbeat.toNat ≤ B := by
  obtain ⟨a1, a2, a3⟩ := sums hw
  intro e
  cases h with
  | slave hs => rw [hs] at e; cases e
  | takes _ _ _ _ _ _ t =>
    rename_i h1 _
    rw [h1, a1]; omega
  | acts _ _ hs _ a =>
    have := b hs
    generalize s'.timers = T at a
    cases a with
    | quiet => exact this
    | beat => show 1000 ≤ (now + 1000).toNat ∧ (now + 1000).toNat ≤ B; rw [a1]; omega
    | change => exact this
    | «repeat» => exact this

theorem Takes.beat {now p} {s s' : Node} {l} {B : Nat} (h : Takes now p s s' l)
    (b : s.state = .master → 1000 ≤ s.timers.heartbeat.toNat ∧ s.timers.heartbeat.toNat ≤ B) :
    s'.state = .master → 1000 ≤ s'.timers.heartbeat.toNat ∧ s'.timers.heartbeat.toNat ≤ B := by
  intro e
  cases h with
  | hears _ h | notes _ h | resigns _ h => rw [h] at e; cases e
  | claims _ hs _ _ _ _ t => rw [t]; exact b hs
  | follows hs _ _ _ t => rw [t]; exact b hs

theorem Idle2.beat {now} {s s' : Node} {l} {B : Nat} (h : Idle2 now s s' l)
    (hw : now.toNat + 255000 < 2 ^ 32) (hB : now.toNat + 1000 ≤ B)
    (b : s.state = .master → 1000 ≤ s.timers.heartbeat.toNat ∧ s.timers.heartbeat.toNat ≤ B) :
    s'.state = .master → 1000 ≤ s'.timers.heartbeat.toNat ∧ s'.timers.heartbeat.toNat ≤ B := by
  obtain ⟨_, _, _, c1, c2, _⟩ := h
  exact c2.beat hw hB (c1.beat hw hB b)

theorem Takes2.beat {now p} {s s' : Node} {l} {B : Nat} (h : Takes2 now p s s' l)
    (hw : now.toNat + 255000 < 2 ^ 32) (hB : now.toNat + 1000 ≤ B)
    (b : s.state = .master → 1000 ≤ s.timers.heartbeat.toNat ∧ s.timers.heartbeat.toNat ≤ B) :
    s'.state = .master → 1000 ≤ s'.timers.heartbeat.toNat ∧ s'.timers.heartbeat.toNat ≤ B := by
  obtain ⟨_, _, _, c1, c2, _⟩ := h
  exact c2.beat hw hB (c1.beat b)

end Node

namespace FakeNet
open Node

/-- The last packet the master `i` transmitted is `q`, and no other device knows it. -/
structure Mine {n} (net : FakeNet n) (i : Fin n) (q : Packet) : Prop where
  master : (net.node i).state = .master
  last : ∃ l, (net.node i).sent = l ++ [q]
  unknown : ∀ j, j ≠ i → q.id ∉ memory (net.node j)

/-- In how many radios a packet numbered `x` waits. -/
def rel {n} (f : Fin n → Option Packet) (x : U16) : Nat :=
  tot fun i => if (f i).any (fun q => q.id == x) then 1 else 0

theorem rel_le {n} (f : Fin n → Option Packet) (x : U16) : rel f x ≤ n := by
  have := tot_bound (g := fun i => if (f i).any (fun q => q.id == x) then 1 else 0) (c := 1)
    (fun i => by split <;> omega)
  unfold rel
  omega

theorem rel_mono {n} {f g : Fin n → Option Packet} {x : U16}
    (h : ∀ i, ∀ q ∈ f i, q.id = x → g i = some q) : rel f x ≤ rel g x := by
  apply tot_le
  intro i
  cases hf : f i with
  | none => simp
  | some q =>
    by_cases hq : q.id = x
    · rw [h i q (by rw [hf]; rfl) hq]; exact Nat.le_refl _
    · simp [hq]

theorem rel_drop {n} {f g : Fin n → Option Packet} {x : U16} {k : Fin n} {q : Packet}
    (h : f k = some q) (hq : q.id = x) (hk : g k = none) (hg : ∀ i, i ≠ k → g i = f i) :
    rel g x + 1 = rel f x := by
  unfold rel
  symm
  apply tot_drop (k := k)
  · rw [h, hk]; simp [hq]
  · intro i hi
    rw [hg i hi]

/-- No packets are lost, and any number of devices are masters, after a `Tick` at `t`.  What is on
its way is either numbered `cur`, which all devices have known since `s₀`, or it is the last packet
of a master, and no other knows it yet. -/
structure Clean {n} (net : FakeNet n) (t s₀ : Nat) (cur : Option U16) : Prop where
  loss : net.loss = 0
  sound : ∀ i, (net.node i).Sound
  able : net.Able
  beat : ∀ i, (net.node i).state = .master → 1000 ≤ (net.node i).timers.heartbeat.toNat ∧
    (net.node i).timers.heartbeat.toNat ≤ t + 1000
  since : s₀ ≤ t
  recent : ∀ x ∈ cur, ∀ i, ∃ l S : List Packet, (net.node i).sent = l ++ S ∧ x ∈ S.map (·.id) ∧
    Bound (s₀ + 1000) (net.node i) S.length
  slot : ∀ i, ∀ q ∈ (net.radio i).sent, q.id ∈ cur ∨ Mine net i q
  air : (net.packet = none ∧ ∀ i, (net.radio i).sent = none) ∨
    ∃ q, net.packet = some q ∧
      ((q.id ∈ cur ∧ rel (fun i => (net.radio i).sent) q.id + t ≤ s₀ + n) ∨
        ∃ B, Mine net B q ∧ (net.radio B).sent = none)

/-- Nothing is on its way. -/
theorem Clean.rest {n} {net : FakeNet n} {t s₀ cur} (c : Clean net t s₀ cur)
    (h : net.packet = none) : Clean net t t none ∧ ∀ i, (net.radio i).sent = none := by
  rcases c.air with ⟨_, hs⟩ | ⟨q, hq, _⟩
  · refine ⟨⟨c.loss, c.sound, c.able, c.beat, Nat.le_refl _, fun x hx => (by cases hx),
      fun i q hq => ?_, .inl ⟨h, hs⟩⟩, hs⟩
    rw [hs i] at hq; cases hq
  · rw [h] at hq; cases hq

/-- What remains to be shown after the devices have run. -/
theorem Clean.assemble {n} {net net' : FakeNet n} {t s₀ cur rx} (r : Round net net' rx)
    (h1 : net.loss = 0) (h2 : ∀ i, (net'.node i).Sound) (h3 : net'.Able)
    (h4 : ∀ i, (net'.node i).state = .master → 1000 ≤ (net'.node i).timers.heartbeat.toNat ∧
      (net'.node i).timers.heartbeat.toNat ≤ t + 1000)
    (h5 : s₀ ≤ t)
    (h6 : ∀ x ∈ cur, ∀ i, ∃ l S : List Packet, (net'.node i).sent = l ++ S ∧ x ∈ S.map (·.id) ∧
      Bound (s₀ + 1000) (net'.node i) S.length)
    (h7 : ∀ i, ∀ q ∈ Waiting net net' i, q.id ∈ cur ∨ Mine net' i q)
    (h8 : ∀ x ∈ cur, rel (Waiting net net') x + t ≤ s₀ + n + 1) : Clean net' t s₀ cur := by
  refine ⟨r.loss.trans h1, h2, h3, h4, h5, h6, fun i q hq => ?_, ?_⟩
  · rcases taken_sent r i with e | e
    · rw [e] at hq; cases hq
    · rw [e] at hq; exact h7 i q hq
  · rcases taken_cases r with ⟨e1, e2, _⟩ | ⟨k, p, e1, e2, e3, e4⟩
    · exact .inl ⟨e1, e2⟩
    · refine .inr ⟨p, e1, ?_⟩
      rcases h7 k p e2 with h | h
      · left
        refine ⟨h, ?_⟩
        have := rel_drop (f := Waiting net net') (g := fun i => (net'.radio i).sent) e2 rfl e3 e4
        have := h8 _ h
        omega
      · exact .inr ⟨k, h, e3⟩

/-- A packet with a new number. -/
theorem Fresh.mine {n} {net net' : FakeNet n} (f : Fresh net net') {i : Fin n} {q : Packet}
    (hq : q ∈ own net net' i) (hs : (net'.node i).state = .master)
    (hl : ∃ l, (net'.node i).sent = l ++ [q])
    (hj : ∀ j, ∃ m, (net'.node j).sent = (net.node j).sent ++ m ∧
      ∀ x ∈ m, x ∈ own net net' j ∨ ∃ a ∈ net.packet, x.id = a.id) : Mine net' i q := by
  refine ⟨hs, hl, fun j hji hm => ?_⟩
  obtain ⟨m, h1, h2⟩ := hj j
  rcases memory_append h1 _ hm with h | h
  · exact f.memory i q hq j h
  · obtain ⟨x, hx, e⟩ := List.mem_map.1 h
    rcases h2 x hx with h | ⟨a, ha, e'⟩
    · exact f.others i j (Ne.symm hji) q hq x h e.symm
    · exact f.packet i q hq a ha (e.symm.trans e')

theorem mem_last {l : List Packet} {q : Packet} (h : l.getLast? = some q) : ∃ l', l = l' ++ [q] := by
  obtain ⟨l', e⟩ := List.getLast?_eq_some_iff.1 h
  exact ⟨l', e⟩

/-- A `Tick` in which no device hears anything new. -/
theorem Clean.known {n} {net net' : FakeNet n} {t s₀ cur} (c : Clean net t s₀ cur) (hn : n ≤ 900)
    (r : Round net net' fun _ => net.air) (f : Fresh net net') (ha : net'.Able)
    (ht : net.now.toNat = t + 1) (hw : net.now.toNat + 255000 < 2 ^ 32)
    (hk : ∀ q ∈ net.packet, q.id ∈ cur ∧ rel (fun i => (net.radio i).sent) q.id + t ≤ s₀ + n)
    (hc : net.packet = none → cur = none) :
    (∀ i, Idle2 net.now (net.node i) (net'.node i) (own net net' i)) ∧
      (∀ i, Waiting net net' i = (own net net' i).getLast?.or (net.radio i).sent) ∧
      (∀ i, ∀ q, Waiting net net' i = some q →
        (own net net' i = [] ∧ (net.radio i).sent = some q ∧ q.id ∈ cur) ∨
        (own net net' i = [] ∧ (net.radio i).sent = some q ∧ Mine net i q ∧ Mine net' i q) ∨
        (q ∈ own net net' i ∧ Mine net' i q)) ∧
      Clean net' (t + 1) (if net.packet = none then t + 1 else s₀) cur := by
  have reg : ∀ p ∈ net.air, Regular p := by
    intro p hp
    obtain ⟨q, hq, rfl⟩ := Option.map_eq_some_iff.1 hp
    exact regular_tidy (c.able.packet q hq)
  have hs := c.since
  have hid : ∀ i, ∃ m, Idle2 net.now (net.node i) (net'.node i) m := by
    intro i
    refine (c.sound i).idle2 (c.able.node i) hw (θ := s₀ + 1000) (fun p hp => ⟨reg p hp, ?_⟩)
      (r.ticks i)
    obtain ⟨q, hq, e, _⟩ := mem_air hp
    obtain ⟨h1, h2⟩ := hk q hq
    obtain ⟨l, S, e1, e2, e3⟩ := c.recent _ h1 i
    exact ⟨l, S, e1, by rw [e]; exact e2, e3, by omega, by omega⟩
  have hown : ∀ i m, Idle2 net.now (net.node i) (net'.node i) m → own net net' i = m := by
    intro i m h
    refine own_known h.sent fun q hq => ?_
    obtain ⟨h1, _⟩ := hk q hq
    obtain ⟨l, S, e1, e2, e3⟩ := c.recent _ h1 i
    exact memory_recent e1 e3.le e2
  have hI : ∀ i, Idle2 net.now (net.node i) (net'.node i) (own net net' i) := by
    intro i
    obtain ⟨m, h⟩ := hid i
    rw [hown i m h]; exact h
  have hW : ∀ i, Waiting net net' i = (own net net' i).getLast?.or (net.radio i).sent := fun i =>
    waiting_eq (hI i).sent
  have hgrow : ∀ j, ∃ m, (net'.node j).sent = (net.node j).sent ++ m ∧
      ∀ x ∈ m, x ∈ own net net' j ∨ ∃ a ∈ net.packet, x.id = a.id := fun j =>
    ⟨_, (hI j).sent, fun x hx => .inl hx⟩
  have hcase : ∀ i, ∀ q, Waiting net net' i = some q →
        (own net net' i = [] ∧ (net.radio i).sent = some q ∧ q.id ∈ cur) ∨
        (own net net' i = [] ∧ (net.radio i).sent = some q ∧ Mine net i q ∧ Mine net' i q) ∨
        (q ∈ own net net' i ∧ Mine net' i q) := by
    intro i q hq
    rw [hW i] at hq
    cases hl : (own net net' i).getLast? with
    | none =>
      rw [hl] at hq
      have ho : own net net' i = [] := List.getLast?_eq_none_iff.1 hl
      have hq : (net.radio i).sent = some q := hq
      rcases c.slot i q (by rw [hq]; rfl) with h | h
      · exact .inl ⟨ho, hq, h⟩
      · refine .inr (.inl ⟨ho, hq, h, (hI i).states.1 h.master, ?_, fun j hji hm => ?_⟩)
        · obtain ⟨l, e⟩ := h.last
          exact ⟨l, by rw [(hI i).sent, ho, e, List.append_nil]⟩
        · rcases memory_append (hI j).sent _ hm with h' | h'
          · exact h.unknown j hji h'
          · obtain ⟨x, hx, e⟩ := List.mem_map.1 h'
            exact f.radio j x hx i q (by rw [hq]; rfl) e
    | some q' =>
      rw [hl] at hq
      have hq : some q' = some q := hq
      cases hq
      have hmem : q ∈ own net net' i := List.mem_of_getLast? hl
      refine .inr (.inr ⟨hmem, Fresh.mine f hmem ?_ ?_ hgrow⟩)
      · cases hst : (net'.node i).state with
        | master => rfl
        | slave =>
          have := ((hI i).states.2 hst).2
          rw [this] at hmem; cases hmem
      · obtain ⟨l, e⟩ := mem_last hl
        exact ⟨(net.node i).sent ++ l, by rw [(hI i).sent, e, List.append_assoc]⟩
  have hfr : ∀ x ∈ cur, ∀ i, ∀ q ∈ own net net' i, q.id ≠ x := by
    intro x hx i q hq e
    obtain ⟨l, S, e1, e2, e3⟩ := c.recent x hx i
    exact f.memory i q hq i (e ▸ memory_recent e1 e3.le e2)
  refine ⟨hI, hW, hcase, ?_⟩
  refine Clean.assemble r c.loss (tick_sound r c.sound) ha (fun i => ?_) (by split <;> omega)
    (fun x hx i => ?_) (fun i q hq => ?_) (fun x hx => ?_)
  · refine (hI i).beat hw (by omega) fun e => ?_
    have := c.beat i e
    exact ⟨this.1, by omega⟩
  · cases hp : net.packet with
    | none => rw [hc hp] at hx; cases hx
    | some q =>
      rw [if_neg (by simp)]
      obtain ⟨l, S, e1, e2, e3⟩ := c.recent x hx i
      have := (hk q (by rw [hp]; rfl)).2
      refine ⟨l, S ++ own net net' i, by rw [(hI i).sent, e1, List.append_assoc], ?_, ?_⟩
      · rw [List.map_append]; exact List.mem_append_left _ e2
      · rw [List.length_append]
        exact (hI i).bound hw (by omega) (by omega) e3
  · rcases hcase i q hq with h | h | h
    · exact .inl h.2.2
    · exact .inr h.2.2.2
    · exact .inr h.2
  · cases hp : net.packet with
    | none => rw [hc hp] at hx; cases hx
    | some q =>
      rw [if_neg (by simp)]
      obtain ⟨h1, h2⟩ := hk q (by rw [hp]; rfl)
      have hxq : x = q.id := by
        have a : cur = some x := hx
        have b : cur = some q.id := h1
        rw [a] at b; cases b; rfl
      subst hxq
      have : rel (Waiting net net') q.id ≤ rel (fun i => (net.radio i).sent) q.id := by
        refine rel_mono fun i q' hq' e => ?_
        rcases hcase i q' hq' with h | h | h
        · exact h.2.1
        · exact h.2.1
        · exact absurd e (hfr _ hx i q' h.1)
      omega

/-- A `Tick` in which all but `B` hear a packet of `B` for the first time. -/
theorem Clean.new {n} {net net' : FakeNet n} {t s₀ cur} (c : Clean net t s₀ cur)
    (r : Round net net' fun _ => net.air) (f : Fresh net net') (ha : net'.Able)
    (ht : net.now.toNat = t + 1) (hw : net.now.toNat + 255000 < 2 ^ 32)
    {B : Fin n} {q : Packet} (hq : net.packet = some q) (hB : Mine net B q)
    (hBs : (net.radio B).sent = none) :
    ∃ p : Packet, p.id = q.id ∧ p.type = q.type ∧
      Idle2 net.now (net.node B) (net'.node B) (own net net' B) ∧
      (∀ i, i ≠ B → Takes2 net.now p (net.node i) (net'.node i) (own net net' i)) ∧
      (Waiting net net' B = (own net net' B).getLast?) ∧
      (∀ i, i ≠ B → Waiting net net' i = (p :: own net net' i).getLast?) ∧
      (∀ i, ∀ q', Waiting net net' i = some q' → (own net net' i = [] ∧ q' = p ∧ i ≠ B) ∨
        (q' ∈ own net net' i ∧ Mine net' i q')) ∧
      Clean net' (t + 1) (t + 1) (some q.id) := by
  obtain ⟨p, hp, pid, pty⟩ := air_some hq
  rw [hp] at r
  have reg : Regular p := by
    have hp' : p ∈ net.air := hp
    obtain ⟨q', hq', rfl⟩ := Option.map_eq_some_iff.1 hp'
    exact regular_tidy (c.able.packet q' hq')
  obtain ⟨lB, hlB⟩ := hB.last
  have hkB : q.id ∈ memory (net.node B) := memory_recent hlB (by simp) (by simp)
  have bB : Bound (net.now.toNat + 1000) (net.node B) [q].length := .inr ⟨hB.master, by
    simp only [List.length_singleton]; omega⟩
  have hIB : Idle2 net.now (net.node B) (net'.node B) (own net net' B) := by
    obtain ⟨m, h⟩ := (c.sound B).idle2 (c.able.node B) hw (θ := net.now.toNat + 1000)
      (fun p' hp' => by
        cases hp'
        exact ⟨reg, lB, [q], hlB, by simp [pid], bB, by omega, by omega⟩) (r.ticks B)
    have : own net net' B = m := own_known h.sent fun q' hq' => by
      rw [hq] at hq'; cases hq'; exact hkB
    rw [this]; exact h
  have hT : ∀ i, i ≠ B → Takes2 net.now p (net.node i) (net'.node i) (own net net' i) := by
    intro i hi
    obtain ⟨m, h⟩ := (c.sound i).takes2 (c.able.node i) hw reg
      (by rw [pid]; exact hB.unknown i hi) (r.ticks i)
    have : own net net' i = m := own_unknown h.sent hq (hB.unknown i hi)
    rw [this]; exact h
  have hWB : Waiting net net' B = (own net net' B).getLast? := by
    rw [waiting_eq hIB.sent, hBs, Option.or_none]
  have hW : ∀ i, i ≠ B → Waiting net net' i = (p :: own net net' i).getLast? := by
    intro i hi
    rw [waiting_eq (hT i hi).sent, List.getLast?_cons]
    rfl
  have hgrow : ∀ j, ∃ m, (net'.node j).sent = (net.node j).sent ++ m ∧
      ∀ x ∈ m, x ∈ own net net' j ∨ ∃ a ∈ net.packet, x.id = a.id := by
    intro j
    by_cases hj : j = B
    · subst hj; exact ⟨_, hIB.sent, fun x hx => .inl hx⟩
    · refine ⟨_, (hT j hj).sent, fun x hx => ?_⟩
      rcases List.mem_cons.1 hx with rfl | hx
      · exact .inr ⟨q, by rw [hq]; rfl, pid⟩
      · exact .inl hx
  have hmine : ∀ i q', q' ∈ own net net' i → (own net net' i).getLast? = some q' →
      Mine net' i q' := by
    intro i q' hm hl
    obtain ⟨l, e⟩ := mem_last hl
    by_cases hi : i = B
    · subst hi
      exact Fresh.mine f hm (hIB.states.1 hB.master)
        ⟨(net.node i).sent ++ l, by rw [hIB.sent, e, List.append_assoc]⟩ hgrow
    · refine Fresh.mine f hm ?_ ⟨(net.node i).sent ++ p :: l, by
        rw [(hT i hi).sent, e]; simp⟩ hgrow
      cases hst : (net'.node i).state with
      | master => rfl
      | slave =>
        have := (hT i hi).states hst
        rw [this] at hm; cases hm
  have hcase : ∀ i, ∀ q', Waiting net net' i = some q' → (own net net' i = [] ∧ q' = p ∧ i ≠ B) ∨
        (q' ∈ own net net' i ∧ Mine net' i q') := by
    intro i q' hq'
    by_cases hi : i = B
    · subst hi
      rw [hWB] at hq'
      have := List.mem_of_getLast? hq'
      exact .inr ⟨this, hmine i q' this hq'⟩
    · rw [hW i hi] at hq'
      cases ho : own net net' i with
      | nil =>
        rw [ho] at hq'
        cases hq'
        exact .inl ⟨rfl, rfl, hi⟩
      | cons a m =>
        rw [ho, List.getLast?_cons_cons] at hq'
        rw [← ho] at hq' ⊢
        have := List.mem_of_getLast? hq'
        exact .inr ⟨this, hmine i q' this hq'⟩
  refine ⟨p, pid, pty, hIB, hT, hWB, hW, hcase, ?_⟩
  refine Clean.assemble r c.loss (tick_sound r c.sound) ha (fun i => ?_) (Nat.le_refl _)
    (fun x hx i => ?_) (fun i q' hq' => ?_) (fun x _ => ?_)
  · have hb : (net.node i).state = .master → 1000 ≤ (net.node i).timers.heartbeat.toNat ∧
        (net.node i).timers.heartbeat.toNat ≤ t + 1 + 1000 := fun e => by
      have := c.beat i e
      exact ⟨this.1, by omega⟩
    by_cases hi : i = B
    · subst hi; exact hIB.beat hw (by omega) hb
    · exact (hT i hi).beat hw (by omega) hb
  · cases hx
    by_cases hi : i = B
    · subst hi
      refine ⟨lB, [q] ++ own net net' i, by rw [hIB.sent, hlB, List.append_assoc], by simp, ?_⟩
      rw [List.length_append]
      rw [ht] at bB
      exact hIB.bound hw (by omega) (by omega) bB
    · refine ⟨(net.node i).sent, p :: own net net' i, (hT i hi).sent, by simp [pid], ?_⟩
      have b := (hT i hi).bound (θ := t + 1 + 1000) hw (by omega) (by omega)
      have e : (p :: own net net' i).length = 1 + (own net net' i).length := by
        rw [List.length_cons]; omega
      rw [e]; exact b
  · rcases hcase i q' hq' with h | h
    · rw [h.2.1]; left; exact congrArg some pid.symm
    · exact .inr h.2
  · have := rel_le (Waiting net net') x
    omega

end FakeNet
end Firefly
