import Verif.Lemmas.FakeContest

/-! # The network of the integration tests with one master -/

namespace Firefly
open Spec

namespace FakeNet

/-! ### The timers of the master -/

/-- The timers of a master after a `Tick` at time `t`: none is overdue, except that the repetition
may wait for one millisecond if both others were due. -/
structure OnTime (t H c b : Nat) : Prop where
  pos : 2 ≤ t
  beat : t ≤ H
  change : t ≤ c
  bcast : t ≤ b ∨ (t = b + 1 ∧ t < H ∧ t < c)

/-- What a master transmits in a `Tick` at `t + 1`, and its timers afterwards. -/
inductive Fires (t H c b : Nat) : Nat → Nat → Nat → List Packet → Prop
  | none : t < H → t < c → t < b → Fires t H c b H c b []
  | beat (q : Packet) : q.type = .heartbeat → H = t → t < c → t < b →
      Fires t H c b (t + 1001) c b [q]
  | change (q : Packet) : t < H → c = t → t < b → Fires t H c b H (t + 60001) b [q]
  | repeat (q : Packet) : t < H → t < c → b ≤ t → Fires t H c b H c (t + 2001) [q]
  | beatChange (q r : Packet) : H = t → c = t → t ≤ b → Fires t H c b (t + 1001) (t + 60001) b [q, r]
  | beatRepeat (q r : Packet) : H = t → t < c → b ≤ t →
      Fires t H c b (t + 1001) c (t + 2001) [q, r]
  | changeRepeat (q r : Packet) : t < H → c = t → b ≤ t →
      Fires t H c b H (t + 60001) (t + 2001) [q, r]

theorem due_iff {now x : U32} (h : 0 < x.toNat) : Node.Due now x ↔ x.toNat < now.toNat := by
  unfold Node.Due
  rw [BitVec.lt_def]
  constructor
  · exact fun e => e.2
  · refine fun e => ⟨fun h0 => ?_, e⟩
    rw [h0] at h
    exact absurd h (by decide)

theorem fires_of {now : U32} {t : Nat} {T T₁ T' : Timers} {l₁ l₂ : List Packet}
    (hn : now.toNat = t + 1) (hw : now.toNat + 255000 < 2 ^ 32)
    (o : OnTime t T.heartbeat.toNat T.changeEffect.toNat T.broadcastEffect.toNat)
    (f1 : Node.Fire now T T₁ l₁) (f2 : Node.Fire now T₁ T' l₂) :
    Fires t T.heartbeat.toNat T.changeEffect.toNat T.broadcastEffect.toNat
      T'.heartbeat.toNat T'.changeEffect.toNat T'.broadcastEffect.toNat (l₁ ++ l₂) := by
  obtain ⟨o1, o2, o3, o4⟩ := o
  have e1 : (now + 1000).toNat = t + 1001 := by
    have e := Node.add_toNat (d := 1000) hw (by decide)
    have : (1000 : U32).toNat = 1000 := rfl
    omega
  have e2 : (now + 2000).toNat = t + 2001 := by
    have e := Node.add_toNat (d := 2000) hw (by decide)
    have : (2000 : U32).toNat = 2000 := rfl
    omega
  have e3 : (now + 60000).toNat = t + 60001 := by
    have e := Node.add_toNat (d := 60000) hw (by decide)
    have : (60000 : U32).toNat = 60000 := rfl
    omega
  have d1 : ¬ Node.Due now (now + 1000) := by rw [due_iff (by omega)]; omega
  have d2 : ¬ Node.Due now (now + 2000) := by rw [due_iff (by omega)]; omega
  have d3 : ¬ Node.Due now (now + 60000) := by rw [due_iff (by omega)]; omega
  have hH := due_iff (now := now) (x := T.heartbeat) (by omega)
  have hc := due_iff (now := now) (x := T.changeEffect) (by omega)
  have hb := due_iff (now := now) (x := T.broadcastEffect) (by omega)
  cases f1 with
  | quiet a1 a2 a3 =>
    cases f2 with
    | quiet =>
      rw [hH] at a1
      rw [hc] at a2
      rw [hb] at a3
      exact .none (by omega) (by omega) (by omega)
    | beat r b => exact absurd b a1
    | change r _ b => exact absurd b a2
    | «repeat» r _ _ b => exact absurd b a3
  | beat q a1 a2 =>
    cases f2 with
    | quiet b1 b2 b3 =>
      simp only [] at b2 b3
      rw [hH] at a1
      rw [hc] at b2
      rw [hb] at b3
      simp only [e1]
      exact .beat q a2 (by omega) (by omega) (by omega)
    | beat r b => exact absurd b d1
    | change r b1 b2 =>
      simp only [] at b2
      rw [hH] at a1
      rw [hc] at b2
      simp only [e1, e3]
      exact .beatChange q r (by omega) (by omega) (by omega)
    | «repeat» r b1 b2 b3 =>
      simp only [] at b2 b3
      rw [hH] at a1
      rw [hc] at b2
      rw [hb] at b3
      simp only [e1, e2]
      exact .beatRepeat q r (by omega) (by omega) (by omega)
  | change q a1 a2 =>
    rw [hH] at a1
    rw [hc] at a2
    cases f2 with
    | quiet b1 b2 b3 =>
      simp only [] at b3
      rw [hb] at b3
      simp only [e3]
      exact .change q (by omega) (by omega) (by omega)
    | beat r b => simp only [] at b; rw [hH] at b; omega
    | change r _ b => exact absurd b d3
    | «repeat» r b1 b2 b3 =>
      simp only [] at b3
      rw [hb] at b3
      simp only [e2, e3]
      exact .changeRepeat q r (by omega) (by omega) (by omega)
  | «repeat» q a1 a2 a3 =>
    rw [hb] at a3
    cases f2 with
    | quiet b1 b2 b3 =>
      rw [hH] at a1
      rw [hc] at a2
      simp only [e2]
      exact .repeat q (by omega) (by omega) (by omega)
    | beat r b => exact absurd b a1
    | change r _ b => exact absurd b a2
    | «repeat» r _ _ b => exact absurd b d2

theorem Fires.onTime {t H c b H' c' b' m} (f : Fires t H c b H' c' b' m) (o : OnTime t H c b) :
    OnTime (t + 1) H' c' b' := by
  obtain ⟨o1, o2, o3, o4⟩ := o
  cases f <;> refine ⟨by omega, by omega, by omega, by omega⟩

/-- How many timers are set for `θ` or later. -/
def late (θ H c b : Nat) : Nat :=
  (if θ ≤ H then 1 else 0) + (if θ ≤ c then 1 else 0) + (if θ ≤ b then 1 else 0)

theorem late_le (θ H c b) : late θ H c b ≤ 3 := by unfold late; grind

theorem Fires.count {t H c b H' c' b' m s₀} (f : Fires t H c b H' c' b' m)
    (h1 : s₀ ≤ t) (h2 : t < s₀ + 1000) :
    m.length + late (s₀ + 1000) H c b ≤ late (s₀ + 1000) H' c' b' := by
  unfold late
  cases f <;> simp only [List.length_cons, List.length_nil] <;> grind

/-! ### Heartbeats get through -/

/-- The repetition will come before the heartbeat sent at `h` is through, or after the next one
is. -/
def Bfar (K h b : Nat) : Prop := b < h + K ∨ h + 1001 + K ≤ b

/-- The next effect will come before the heartbeat sent at `h` is through, or much later. -/
def Cfar (K h L c : Nat) : Prop := c < h + K ∨ L + 6000 ≤ c

/-- The last heartbeat, sent at `h`, may have been lost; `L` is when all slaves last heard one. -/
def Missed (K h L c b : Nat) : Prop :=
  h ≤ L ∨ (h ≤ L + 1001 ∧ (Bfar K h b ∨ Cfar K h L c)) ∨ (h ≤ L + 2002 ∧ Cfar K h L c) ∨
    (h ≤ L + 3003 ∧ Bfar K h b ∧ Cfar K h L c)

/-- Without a heartbeat sent, the case stays. -/
theorem Fires.missed {K t h c b H' c' b' m L} (f : Fires t (h + 1000) c b H' c' b' m)
    (hK : K ≤ 300) (hL : L ≤ t) (hh : h ≤ t) (hlt : t < h + 1000) (hm : Missed K h L c b) :
    H' = h + 1000 ∧ Missed K h L c' b' := by
  unfold Missed Bfar Cfar at *
  cases f <;> refine ⟨by omega, by omega⟩

/-- When a heartbeat is sent, it will get through or the next case applies. -/
theorem Fires.heartbeat {K t h c b H' c' b' m L} (f : Fires t (h + 1000) c b H' c' b' m)
    (o : OnTime t (h + 1000) c b)
    (hK : K ≤ 300) (hL : L ≤ t) (heq : t = h + 1000) (hm : Missed K h L c b) :
    H' = (t + 1) + 1000 ∧ (Missed K (t + 1) L c' b' ∨
      (t + 1 ≤ L + 4004 ∧ t + 1 + K ≤ b' ∧ t + 1 + K ≤ c' ∧
        ∃ q : Packet, m = [q] ∧ q.type = .heartbeat)) := by
  obtain ⟨o1, o2, o3, o4⟩ := o
  cases f with
  | none | change | «repeat» | changeRepeat => omega
  | beat q hq _ _ _ =>
    refine ⟨by omega, ?_⟩
    by_cases hs : t + 1 + K ≤ b ∧ t + 1 + K ≤ c
    · refine .inr ⟨?_, hs.1, hs.2, q, rfl, hq⟩
      unfold Missed Bfar Cfar at hm; omega
    · left
      unfold Missed Bfar Cfar at *
      omega
  | beatChange | beatRepeat =>
    refine ⟨by omega, .inl ?_⟩
    unfold Missed Bfar Cfar at *
    omega

/-! ### The packets -/

/-- A packet of the master `A`, one of `S`, that all others know. -/
def Old {n} (net : FakeNet n) (A : Fin n) (S : List Packet) (q : Packet) : Prop :=
  q.id ∈ S.map (·.id) ∧ ∀ i, i ≠ A → q.id ∈ memory (net.node i)

/-- A packet of the master `A`, one of `S`, that no other knows. -/
def New {n} (net : FakeNet n) (A : Fin n) (S : List Packet) (q : Packet) : Prop :=
  q.id ∈ S.map (·.id) ∧ ∀ i, i ≠ A → q.id ∉ memory (net.node i)

/-- `A` is the only master, after a `Tick` at `t`.  `S` is what it has transmitted since `s₀`, when
all was quiet; all slaves heard a heartbeat or claim at `L` or later; the last heartbeat was sent at
`h`; `v` is the weight of the packet on its way. -/
structure StableAt {n} (net : FakeNet n) (A : Fin n) (t s₀ L h v : Nat) (l S : List Packet) :
    Prop where
  loss : net.loss = 0
  sound : ∀ i, (net.node i).Sound
  master : (net.node A).state = .master
  slaves : ∀ i, i ≠ A → (net.node i).state = .slave ∧
    L + 5000 ≤ (net.node i).timers.heartbeat.toNat
  heard : L ≤ t
  beat : (net.node A).timers.heartbeat.toNat = h + 1000
  past : h ≤ t
  onTime : OnTime t (h + 1000) (net.node A).timers.changeEffect.toNat
    (net.node A).timers.broadcastEffect.toNat
  sent : (net.node A).sent = l ++ S
  since : s₀ ≤ t
  count : S.length ≤ late (s₀ + 1000) (h + 1000) (net.node A).timers.changeEffect.toNat
    (net.node A).timers.broadcastEffect.toNat
  pot : net.load A v + t ≤ s₀ + 3 * n * S.length + n + 2
  slot : (net.packet = none ∧ ∀ i, (net.radio i).sent = none) ∨
    ∃ q, net.packet = some q ∧ (Old net A S q ∧ 1 ≤ v ∨ New net A S q ∧ n ≤ v)
  wait : ∀ i, i ≠ A → ∀ q ∈ (net.radio i).sent, Old net A S q
  own : ∀ q ∈ (net.radio A).sent, New net A S q ∧ ∀ r ∈ net.packet, r.id ≠ q.id
  heart : Missed (3 * n) h L (net.node A).timers.changeEffect.toNat
      (net.node A).timers.broadcastEffect.toNat ∨
    (h ≤ L + 4004 ∧ h + 3 * n ≤ (net.node A).timers.broadcastEffect.toNat ∧
      h + 3 * n ≤ (net.node A).timers.changeEffect.toNat ∧ net.load A v + t ≤ h + 3 * n ∧
      ∃ q : Packet, q.type = .heartbeat ∧
        ((net.radio A).sent = some q ∨ (net.packet = some q ∧ New net A S q)))

/-- `A` is, and remains, the only master. -/
def Stable {n} (net : FakeNet n) (A : Fin n) (t : Nat) : Prop :=
  ∃ s₀ L h v l S, StableAt net A t s₀ L h v l S

theorem Stable.tick {n} {net net' : FakeNet n} {A t} (c : Stable net A t) (hn : n ≤ 99)
    (r : Round net net' fun _ => net.air) (ht : net.now.toNat = t + 1)
    (hw : net.now.toNat + 255000 < 2 ^ 32) (f : Fresh net net') : Stable net' A (t + 1) := by
  obtain ⟨s₀, L, h, v, l, S, c⟩ := c
  have hS3 : S.length ≤ 3 := Nat.le_trans c.count (late_le _ _ _ _)
  have hpot3 : 3 * n * S.length ≤ 9 * n := by
    have := Nat.mul_le_mul_left (3 * n) hS3; omega
  have htL : t + 1 ≤ L + 5000 := by
    have h1 := c.onTime.beat
    rcases c.heart with hm | ⟨h2, _, _, h3, _⟩
    · unfold Missed at hm; omega
    · omega
  have hts : t < s₀ + 1000 := by have := c.pot; omega
  have hmemS : ∀ x, x ∈ S.map (·.id) → x ∈ memory (net.node A) := fun x hx =>
    memory_recent c.sent (by omega) hx
  -- what is heard comes from the master
  have hslotS : ∀ q ∈ net.packet, q.id ∈ S.map (·.id) := by
    intro q hq
    rcases c.slot with ⟨e, _⟩ | ⟨q', e, hq'⟩
    · rw [e] at hq; cases hq
    · rw [e] at hq; cases hq
      rcases hq' with ⟨hq', _⟩ | ⟨hq', _⟩ <;> exact hq'.1
  -- the master
  obtain ⟨T₁, l₁, l₂, f1, f2, hsent, hmaster⟩ := (c.sound A).master_tick c.master c.sent (by omega)
    (fun p hp => by obtain ⟨q, hq, e, _⟩ := mem_air hp; rw [e]; exact hslotS q hq) (r.ticks A)
  have onT := c.onTime
  rw [← c.beat] at onT
  have fires := fires_of ht hw onT f1 f2
  rw [c.beat] at fires
  generalize l₁ ++ l₂ = m at fires hsent
  have hownA : own net net' A = m := own_known hsent fun p hp => hmemS _ (hslotS p hp)
  -- the others
  have others : ∀ i, i ≠ A → (net'.node i).state = .slave ∧
      L + 5000 ≤ (net'.node i).timers.heartbeat.toNat ∧
      ((net.packet = none ∨ ∃ q, net.packet = some q ∧ Old net A S q) ∧
          net'.node i = net.node i ∨
       ∃ q p : Packet, net.packet = some q ∧ New net A S q ∧ p.id = q.id ∧ p.type = q.type ∧
          (net'.node i).sent = (net.node i).sent ++ [p] ∧
          (q.type = .heartbeat → t + 1 + 5000 ≤ (net'.node i).timers.heartbeat.toNat)) := by
    intro i hi
    obtain ⟨h1, h2⟩ := c.slaves i hi
    have quiet : (∀ q ∈ net.packet, q.id ∈ memory (net.node i)) → net'.node i = net.node i := by
      intro hk
      refine (c.sound i).slave_quiet h1 ?_ (by rw [BitVec.le_def]; omega) (r.ticks i)
      intro p hp
      obtain ⟨q, hq, e, _⟩ := mem_air hp
      rw [e]; exact hk q hq
    rcases c.slot with ⟨e, _⟩ | ⟨q, e, ⟨hq, _⟩ | ⟨hq, _⟩⟩
    · have := quiet (by rw [e]; intro _ h; cases h)
      rw [this]
      exact ⟨h1, h2, .inl ⟨.inl e, rfl⟩⟩
    · have := quiet (by rw [e]; intro _ h; cases h; exact hq.2 i hi)
      rw [this]
      exact ⟨h1, h2, .inl ⟨.inr ⟨q, e, hq⟩, rfl⟩⟩
    · obtain ⟨p, hp, pid, pty⟩ := air_some e
      have rt := r.ticks i
      rw [hp] at rt
      obtain ⟨e1, e2, e3⟩ := (c.sound i).slave_hears hw h1 (by rw [pid]; exact hq.2 i hi)
        (.inl (by rw [BitVec.le_def]; omega)) rt
      have := c.heard
      refine ⟨e1, ?_, .inr ⟨q, p, e, hq, pid, pty, e2, fun hty => ?_⟩⟩
      · rcases e3 with ⟨e3, _⟩ | e3
        · rw [e3]; exact h2
        · omega
      · rcases e3 with ⟨_, e3⟩ | e3
        · exact absurd (.inl (pty.trans hty)) e3
        · omega
  -- what they know afterwards
  have mem' : ∀ i, i ≠ A → ∀ x, (∀ q ∈ net.packet, x ≠ q.id) → x ∉ memory (net.node i) →
      x ∉ memory (net'.node i) := by
    intro i hi x hx hn hm
    rcases (others i hi).2.2 with ⟨_, e⟩ | ⟨q, p, e, _, pid, _, e2, _⟩
    · rw [e] at hm; exact hn hm
    · rcases memory_append e2 x hm with hm | hm
      · exact hn hm
      · simp at hm; exact hx q e (hm.trans pid)
  have hOld : ∀ i, i ≠ A → ∀ q ∈ Waiting net net' i, Old net' A (S ++ m) q := by
    intro i hi q hq
    rcases (others i hi).2.2 with ⟨hp, e⟩ | ⟨q', p, e, hn, pid, _, e2, _⟩
    · rw [waiting_same (by rw [e])] at hq
      obtain ⟨k1, k2⟩ := c.wait i hi q hq
      refine ⟨by rw [List.map_append]; exact List.mem_append_left _ k1, fun j hj => ?_⟩
      rcases (others j hj).2.2 with ⟨_, e⟩ | ⟨q', p, e, hn, _⟩
      · rw [e]; exact k2 j hj
      · rcases hp with hp | ⟨q'', hp, ho⟩
        · rw [hp] at e; cases e
        · rw [hp] at e; cases e
          exact absurd (ho.2 j hj) (hn.2 j hj)
    · rw [waiting_eq e2] at hq
      have hq : q = p := by cases hq; rfl
      subst hq
      refine ⟨by rw [List.map_append, pid]; exact List.mem_append_left _ hn.1, fun j hj => ?_⟩
      rcases (others j hj).2.2 with ⟨hp, _⟩ | ⟨q'', p', e', _, pid', _, e2', _⟩
      · rcases hp with hp | ⟨q'', hp, ho⟩
        · rw [hp] at e; cases e
        · rw [hp] at e; cases e
          exact absurd (ho.2 j hj) (hn.2 j hj)
      · rw [e] at e'; cases e'
        exact memory_recent e2' (by simp) (by simp [pid, pid'])
  have hWA : Waiting net net' A = m.getLast?.or (net.radio A).sent := waiting_eq hsent
  have hNew : ∀ q ∈ Waiting net net' A, New net' A (S ++ m) q := by
    intro q hq
    rw [hWA] at hq
    cases hl : m.getLast? with
    | none =>
      rw [hl] at hq
      obtain ⟨⟨k1, k2⟩, k3⟩ := c.own q hq
      exact ⟨by rw [List.map_append]; exact List.mem_append_left _ k1, fun i hi =>
        mem' i hi _ (fun r hr => (k3 r hr).symm) (k2 i hi)⟩
    | some q' =>
      rw [hl] at hq
      cases hq
      have hin := List.mem_of_getLast? hl
      refine ⟨List.mem_map_of_mem (List.mem_append_right _ hin), fun i hi =>
        mem' i hi _ (fun r hr => ?_) ?_⟩
      · exact f.packet A q (hownA ▸ hin) r hr
      · exact f.memory A q (hownA ▸ hin) i
  -- the network takes a packet
  obtain ⟨v', hload, htaken⟩ := load_taken r A
  have sent' : ∀ i, (net'.radio i).sent = none ∨ (net'.radio i).sent = Waiting net net' i :=
    taken_sent r
  have wait' : ∀ i, i ≠ A → ∀ q ∈ (net'.radio i).sent, Old net' A (S ++ m) q := by
    intro i hi q hq
    rcases sent' i with e | e
    · rw [e] at hq; cases hq
    · rw [e] at hq; exact hOld i hi q hq
  have slot' : (net'.packet = none ∧ ∀ i, (net'.radio i).sent = none) ∨
      ∃ q, net'.packet = some q ∧
        (Old net' A (S ++ m) q ∧ 1 ≤ v' ∨ New net' A (S ++ m) q ∧ n ≤ v') := by
    rcases htaken with ⟨e1, e2, _⟩ | ⟨k, p, e1, e2, e3, _⟩
    · exact .inl ⟨e1, e2⟩
    · refine .inr ⟨p, e1, ?_⟩
      by_cases hk : k = A
      · rw [if_pos hk] at e3
        exact .inr ⟨hNew p (hk ▸ e2), by omega⟩
      · rw [if_neg hk] at e3
        exact .inl ⟨hOld k hk p e2, by omega⟩
  have own' : ∀ q ∈ (net'.radio A).sent, New net' A (S ++ m) q ∧ ∀ r ∈ net'.packet, r.id ≠ q.id := by
    intro q hq
    rcases htaken with ⟨_, e2, _⟩ | ⟨k, p, e1, e2, _, e4⟩
    · rw [e2] at hq; cases hq
    · rw [e4] at hq
      by_cases hk : A = k
      · rw [if_pos hk] at hq; cases hq
      · rw [if_neg hk] at hq
        have hN := hNew q hq
        refine ⟨hN, fun r hr e => ?_⟩
        rw [e1] at hr; cases hr
        exact hN.2 k (Ne.symm hk) (e ▸ (hOld k (Ne.symm hk) p e2).2 k (Ne.symm hk))
  have hlt := waits_lt (Waiting net net') A
  -- the load
  have quietLoad : m = [] → net.packet ≠ none → net'.load A v' + 1 ≤ net.load A v := by
    intro hm hp
    rw [hload, hWA, hm]
    show _ + (if (net.radio A).sent.isSome = true then n else 0) + 1 ≤ _
    unfold load
    rcases c.slot with ⟨e, _⟩ | ⟨q, e, ⟨hq, hv⟩ | ⟨hq, hv⟩⟩
    · exact absurd e hp
    · have : waits (Waiting net net') A = waits (fun i => (net.radio i).sent) A := by
        refine waits_congr fun i hi => ?_
        rcases (others i hi).2.2 with ⟨_, e'⟩ | ⟨q', _, e', hn, _⟩
        · rw [waiting_same (by rw [e'])]
        · rw [e] at e'; cases e'
          exact absurd (hq.2 i hi) (hn.2 i hi)
      rw [this]; omega
    · omega
  have anyLoad : net'.load A v' + 1 ≤ 2 * n := by
    rw [hload]; split <;> omega
  have sound' := tick_sound r c.sound
  have on' := fires.onTime c.onTime
  have hsent' : (net'.node A).sent = l ++ (S ++ m) := by
    rw [hsent, c.sent, List.append_assoc]
  have cnt' := fires.count c.since hts
  -- the heartbeat
  have heart : ∃ h' L', h' ≤ t + 1 ∧ L' ≤ t + 1 ∧
      (net'.node A).timers.heartbeat.toNat = h' + 1000 ∧
      (∀ i, i ≠ A → L' + 5000 ≤ (net'.node i).timers.heartbeat.toNat) ∧
      (Missed (3 * n) h' L' (net'.node A).timers.changeEffect.toNat
        (net'.node A).timers.broadcastEffect.toNat ∨
      (h' ≤ L' + 4004 ∧ h' + 3 * n ≤ (net'.node A).timers.broadcastEffect.toNat ∧
        h' + 3 * n ≤ (net'.node A).timers.changeEffect.toNat ∧
        net'.load A v' + (t + 1) ≤ h' + 3 * n ∧
        (m ≠ [] ∨ net.packet ≠ none) ∧
        ∃ q : Packet, q.type = .heartbeat ∧ Waiting net net' A = some q)) := by
    have sl : ∀ i, i ≠ A → L + 5000 ≤ (net'.node i).timers.heartbeat.toNat := fun i hi =>
      (others i hi).2.1
    have hL := c.heard
    have hp := c.past
    have hb := c.onTime.beat
    rcases c.heart with hm | ⟨g1, g2, g3, g4, q, g5, g6⟩
    · by_cases heq : t = h + 1000
      · obtain ⟨k1, k2 | ⟨k2, k3, k4, q, k5, k6⟩⟩ :=
          fires.heartbeat c.onTime (K := 3 * n) (by omega) hL heq hm
        · exact ⟨t + 1, L, Nat.le_refl _, by omega, k1, sl, .inl k2⟩
        · refine ⟨t + 1, L, Nat.le_refl _, by omega, k1, sl, .inr ⟨k2, k3, k4, by omega,
            .inl (by rw [k5]; simp), q, k6, ?_⟩⟩
          rw [hWA, k5]; rfl
      · obtain ⟨k1, k2⟩ := fires.missed (K := 3 * n) (by omega) hL hp (by omega) hm
        exact ⟨h, L, by omega, by omega, k1, sl, .inl k2⟩
    · have hlen : t < h + 1000 ∧ t < (net.node A).timers.changeEffect.toNat ∧
          t < (net.node A).timers.broadcastEffect.toNat := by
        have : 0 < net.load A v := by
          rcases g6 with e | ⟨e, hN⟩
          · unfold load
            have : 0 < n := A.pos
            rw [e]; simp only [Option.isSome_some, if_true]; omega
          · unfold load
            rcases c.slot with ⟨e', _⟩ | ⟨q', e', ⟨_, hv⟩ | ⟨_, hv⟩⟩
            · rw [e] at e'; cases e'
            · omega
            · have : 0 < n := A.pos
              omega
        omega
      have hnone : m = [] ∧ (net'.node A).timers.heartbeat.toNat = h + 1000 ∧
          (net'.node A).timers.changeEffect.toNat = (net.node A).timers.changeEffect.toNat ∧
          (net'.node A).timers.broadcastEffect.toNat =
            (net.node A).timers.broadcastEffect.toNat := by
        generalize (net'.node A).timers.heartbeat.toNat = H' at *
        generalize (net'.node A).timers.changeEffect.toNat = c' at *
        generalize (net'.node A).timers.broadcastEffect.toNat = b' at *
        cases fires with
        | none => exact ⟨rfl, rfl, rfl, rfl⟩
        | beat | change | «repeat» => omega
        | beatChange | beatRepeat | changeRepeat => omega
      obtain ⟨hm, k1, k2, k3⟩ := hnone
      rcases g6 with e | ⟨e, hN⟩
      · have hne : net.packet ≠ none := by
          intro e'
          rcases c.slot with ⟨_, e2⟩ | ⟨q', e2, _⟩
          · rw [e2] at e; cases e
          · rw [e'] at e2; cases e2
        have := quietLoad hm hne
        refine ⟨h, L, by omega, by omega, k1, sl, .inr ⟨g1, by omega, by omega, by omega,
          .inr hne, q, g5, ?_⟩⟩
        rw [hWA, hm, e]; rfl
      · refine ⟨h, t + 1, by omega, Nat.le_refl _, k1, fun i hi => ?_, .inl (.inl (by omega))⟩
        rcases (others i hi).2.2 with ⟨hp, _⟩ | ⟨q', p, e', _, _, _, _, e3⟩
        · rcases hp with hp | ⟨q'', hp, ho⟩
          · rw [hp] at e; cases e
          · rw [hp] at e; cases e
            exact absurd (ho.2 i hi) (hN.2 i hi)
        · rw [e] at e'; cases e'
          exact e3 g5
  obtain ⟨h', L', g1, g2, g3, g4, g5⟩ := heart
  rw [g3] at on' cnt'
  have slaves' : ∀ i, i ≠ A → (net'.node i).state = .slave ∧
      L' + 5000 ≤ (net'.node i).timers.heartbeat.toNat := fun i hi => ⟨(others i hi).1, g4 i hi⟩
  by_cases hquiet : m = [] ∧ net.packet = none
  · -- all is quiet
    obtain ⟨hm, hp⟩ := hquiet
    have hall : ∀ i, (net.radio i).sent = none := by
      rcases c.slot with ⟨_, e⟩ | ⟨q, e, _⟩
      · exact e
      · rw [hp] at e; cases e
    have hW0 : ∀ i, Waiting net net' i = none := by
      intro i
      by_cases hi : i = A
      · subst hi; rw [hWA, hm, hall]; rfl
      · rcases (others i hi).2.2 with ⟨_, e⟩ | ⟨q, p, e, _⟩
        · rw [waiting_same (by rw [e]), hall]
        · rw [hp] at e; cases e
    have e0 : net'.packet = none ∧ ∀ i, (net'.radio i).sent = none := by
      rcases htaken with ⟨e1, e2, _⟩ | ⟨k, p, _, e2, _⟩
      · exact ⟨e1, e2⟩
      · rw [hW0] at e2; cases e2
    refine ⟨t + 1, L', h', v', l ++ (S ++ m), [], r.loss.trans c.loss, sound', hmaster, slaves',
      g2, g3, g1, on', by rw [hsent', List.append_nil], Nat.le_refl _, by simp, ?_, .inl e0,
      fun i _ q hq => (by rw [e0.2] at hq; cases hq), fun q hq => (by rw [e0.2] at hq; cases hq), ?_⟩
    · rw [hload, waits_zero hW0, hW0]
      simp only [Option.isSome_none]
      show 0 + 0 + (t + 1) ≤ _
      omega
    · rcases g5 with g5 | ⟨_, _, _, _, _, q, _, e⟩
      · exact .inl g5
      · rw [hW0] at e; cases e
  · refine ⟨s₀, L', h', v', l, S ++ m, r.loss.trans c.loss, sound', hmaster, slaves', g2, g3, g1,
      on', hsent', by have := c.since; omega, ?_, ?_, slot', wait', own', ?_⟩
    · rw [List.length_append]
      have := c.count
      omega
    · rw [List.length_append]
      have hp := c.pot
      by_cases hm : m = []
      · have := quietLoad hm (fun e => hquiet ⟨hm, e⟩)
        have e : 3 * n * (S.length + m.length) = 3 * n * S.length := by rw [hm]; rfl
        omega
      · have hm1 : 1 ≤ m.length := by
          cases m with
          | nil => exact absurd rfl hm
          | cons => simp
        have : 3 * n * S.length + 3 * n ≤ 3 * n * (S.length + m.length) := by
          calc 3 * n * S.length + 3 * n = 3 * n * (S.length + 1) := by rw [Nat.mul_add, Nat.mul_one]
            _ ≤ _ := Nat.mul_le_mul_left _ (by omega)
        omega
    · rcases g5 with g5 | ⟨k1, k2, k3, k4, k5, q, k6, k7⟩
      · exact .inl g5
      · refine .inr ⟨k1, k2, k3, k4, q, k6, ?_⟩
        rcases htaken with ⟨_, _, e3⟩ | ⟨k, p, e1, e2, _, e4⟩
        · rw [e3] at k7; cases k7
        · by_cases hk : A = k
          · subst hk
            rw [e2] at k7; cases k7
            exact .inr ⟨e1, hNew q e2⟩
          · left
            rw [e4, if_neg hk]; exact k7

end FakeNet
end Firefly
