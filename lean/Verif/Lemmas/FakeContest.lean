import Verif.Lemmas.FakeElection

/-! # Elections in the network of the integration tests: several masters -/

namespace Firefly
open Spec

namespace FakeNet

/-- What the network does with the packets that wait. -/
theorem taken_cases {n} {net net' : FakeNet n} {rx} (r : Round net net' rx) :
    (net'.packet = none ∧ (∀ i, (net'.radio i).sent = none) ∧ ∀ i, Waiting net net' i = none) ∨
    ∃ k p, net'.packet = some p ∧ Waiting net net' k = some p ∧ (net'.radio k).sent = none ∧
      ∀ i, i ≠ k → (net'.radio i).sent = Waiting net net' i := by
  rcases r.taken with ⟨h1, h2, h3⟩ | ⟨k, p, h1, h2, h3, h4⟩
  · exact .inl ⟨h2, h3, h1⟩
  · exact .inr ⟨k, p, h3, h2, by rw [h4, if_pos rfl], fun i hi => by rw [h4, if_neg hi]⟩

theorem taken_sent {n} {net net' : FakeNet n} {rx} (r : Round net net' rx) (i : Fin n) :
    (net'.radio i).sent = none ∨ (net'.radio i).sent = Waiting net net' i := by
  rcases taken_cases r with ⟨_, h, _⟩ | ⟨k, p, _, _, h1, h2⟩
  · exact .inl (h i)
  · by_cases hi : i = k
    · subst hi; exact .inl h1
    · exact .inr (h2 i hi)

theorem count_taken {n} {net net' : FakeNet n} {rx} (r : Round net net' rx) {A : Fin n}
    (hA : Waiting net net' A = none) :
    waits (fun i => (net'.radio i).sent) A + (if net'.packet.isSome then 1 else 0) =
      waits (Waiting net net') A := by
  rcases r.taken with ⟨h1, h2, h3⟩ | ⟨k, p, h1, h2, h3, h4⟩
  · rw [waits_zero h1, waits_zero h3, h2]; rfl
  · have hkA : k ≠ A := fun e => by rw [e, hA] at h2; cases h2
    rw [h3, ← waits_taken (f := Waiting net net') (g := fun i => (net'.radio i).sent) hkA
      (by rw [h2]; rfl) h4]
    rfl

/-- The state of the timers of a device that became master at `T0` and has done nothing since. -/
structure Armed (T0 : Nat) (T : Timers) : Prop where
  heartbeat : T.heartbeat.toNat = T0 + 1000
  broadcast : T.broadcastEffect.toNat = T0 + 2000
  change : T0 + 2000 ≤ T.changeEffect.toNat

theorem Armed.idle {T0 : Nat} {s : Node} (h : Armed T0 s.timers) (wf : s.WF) {now : U32}
    (hn : now.toNat ≤ T0 + 1000) : s.timerExpired now = .none := by
  obtain ⟨h1, h2, h3⟩ := h
  rw [Node.expired_none_iff wf]
  refine ⟨?_, ?_, ?_⟩ <;> rintro ⟨_, e⟩ <;> rw [BitVec.lt_def] at e <;> omega

/-- Several devices became master at `T0`.  All have heard the packet numbered `x` of `A`, and the
other masters have claimed. -/
structure Contest {n} (net : FakeNet n) (T0 : Nat) (A : Fin n) (x : U16) : Prop where
  loss : net.loss = 0
  sound : ∀ i, (net.node i).Sound
  timers : ∀ i, (net.node i).state = .master → Armed T0 (net.node i).timers
  master : (net.node A).state = .master
  recent : ∃ l q, (net.node A).sent = l ++ [q] ∧ q.id = x
  empty : (net.radio A).sent = none
  known : ∀ i, x ∈ memory (net.node i)
  others : ∀ i, i ≠ A →
    ((net.node i).state = .slave ∧ T0 + 5001 ≤ (net.node i).timers.heartbeat.toNat ∧
      ∀ q ∈ (net.radio i).sent, q.id = x) ∨
    ((net.node i).state = .master ∧ ∃ q : Packet, q.type = .claimMaster ∧
      ((net.radio i).sent = some q ∨ ((net.radio i).sent = none ∧ net.packet = some q)) ∧
      (∃ l, (net.node i).sent = l ++ [q]) ∧ ∀ j, j ≠ i → q.id ∉ memory (net.node j))
  slot : ∀ q ∈ net.packet, q.id = x ∨
    ∃ i, i ≠ A ∧ (net.node i).state = .master ∧ (net.radio i).sent = none
  idle : net.packet = none → ∀ i, (net.radio i).sent = none

/-- A `Tick` of which the devices hear nothing new. -/
theorem Contest.quiet {n} {net net' : FakeNet n} {T0 A x} (c : Contest net T0 A x)
    (r : Round net net' fun _ => net.air) (hn : net.now.toNat ≤ T0 + 1000)
    (hx : ∀ q ∈ net.packet, q.id = x) :
    Contest net' T0 A x ∧ net'.node = net.node ∧
      waits (fun i => (net'.radio i).sent) A + (if net'.packet.isSome then 1 else 0) =
        waits (fun i => (net.radio i).sent) A := by
  have hk : ∀ i, Known (net.node i) net.air := by
    intro i p hp
    obtain ⟨q, hq, e, _⟩ := mem_air hp
    rw [e, hx q hq]
    exact c.known i
  have hnode : ∀ i, net'.node i = net.node i := by
    intro i
    have slave : (net.node i).state = .slave → T0 + 5001 ≤ (net.node i).timers.heartbeat.toNat →
        net'.node i = net.node i := fun h1 h2 =>
      (c.sound i).slave_quiet h1 (hk i) (by rw [BitVec.le_def]; omega) (r.ticks i)
    have master : (net.node i).state = .master → net'.node i = net.node i := fun h1 =>
      (c.sound i).master_quiet h1 (hk i) ((c.timers i h1).idle (c.sound i).wf hn) (r.ticks i)
    by_cases hi : i = A
    · subst hi; exact master c.master
    · rcases c.others i hi with ⟨h1, h2, _⟩ | ⟨h1, _⟩
      · exact slave h1 h2
      · exact master h1
  have hW : ∀ i, Waiting net net' i = (net.radio i).sent := fun i =>
    waiting_same (by rw [hnode])
  have hnode' : net'.node = net.node := funext hnode
  have claim : ∀ i, i ≠ A → (net.node i).state = .master → ∃ q : Packet, q.type = .claimMaster ∧
      (net.radio i).sent = some q ∧ (∃ l, (net.node i).sent = l ++ [q]) ∧
      ∀ j, j ≠ i → q.id ∉ memory (net.node j) := by
    intro i hi hm
    rcases c.others i hi with ⟨h1, _⟩ | ⟨_, q, h1, h2, h3, h4⟩
    · rw [hm] at h1; cases h1
    · rcases h2 with h2 | ⟨_, h2⟩
      · exact ⟨q, h1, h2, h3, h4⟩
      · exact absurd (hx q h2 ▸ c.known A) (h4 A (Ne.symm hi))
  refine ⟨⟨r.loss.trans c.loss, ?_, ?_, ?_, ?_, ?_, ?_, ?_, ?_, ?_⟩, hnode', ?_⟩
  · rw [hnode']; exact c.sound
  · rw [hnode']; exact c.timers
  · rw [hnode']; exact c.master
  · rw [hnode']; exact c.recent
  · rcases taken_sent r A with h | h
    · exact h
    · rw [h, hW, c.empty]
  · rw [hnode']; exact c.known
  · intro i hi
    rw [hnode']
    rcases c.others i hi with ⟨h1, h2, h3⟩ | ⟨h1, _⟩
    · refine .inl ⟨h1, h2, fun q hq => ?_⟩
      rcases taken_sent r i with h | h
      · rw [h] at hq; cases hq
      · rw [h, hW] at hq; exact h3 q hq
    · obtain ⟨q, e1, e2, e3, e4⟩ := claim i hi h1
      refine .inr ⟨h1, q, e1, ?_, e3, e4⟩
      rcases taken_cases r with ⟨_, _, h⟩ | ⟨k, p, f1, f2, f3, f4⟩
      · have := h i; rw [hW, e2] at this; cases this
      · by_cases hik : i = k
        · subst hik
          rw [hW, e2] at f2
          cases f2
          exact .inr ⟨f3, f1⟩
        · rw [f4 i hik, hW]; exact .inl e2
  · intro q hq
    rcases taken_cases r with ⟨h, _, _⟩ | ⟨k, p, f1, f2, f3, f4⟩
    · rw [h] at hq; cases hq
    · rw [f1] at hq; cases hq
      rw [hW] at f2
      have hkA : k ≠ A := fun e => by rw [e, c.empty] at f2; cases f2
      rcases c.others k hkA with ⟨_, _, h3⟩ | ⟨h1, _⟩
      · exact .inl (h3 _ f2)
      · exact .inr ⟨k, hkA, by rw [hnode']; exact h1, f3⟩
  · intro h i
    rcases taken_cases r with ⟨_, h, _⟩ | ⟨k, p, f1, _⟩
    · exact h i
    · rw [f1] at h; cases h
  · have hw : waits (Waiting net net') A = waits (fun i => (net.radio i).sent) A :=
      waits_congr fun i _ => by rw [hW]
    rw [← hw]
    exact count_taken r (by rw [hW, c.empty])

/-- What devices that hear the packet of `A` make of it. -/
theorem settled {n} {net net' : FakeNet n} {T0 A} {p : Packet}
    (hs : ∀ i, (net'.node i).Sound) (hl : net'.loss = 0)
    (r : Round net net' fun _ => some p) (hA : net'.node A = net.node A)
    (hm : (net.node A).state = .master) (hT : Armed T0 (net.node A).timers)
    (hsent : ∃ l q, (net.node A).sent = l ++ [q] ∧ q.id = p.id)
    (hempty : (net.radio A).sent = none)
    (hear : ∀ i, i ≠ A → (net'.node i).state = .slave ∧
      (net'.node i).sent = (net.node i).sent ++ [p] ∧
      T0 + 5001 ≤ (net'.node i).timers.heartbeat.toNat) :
    Contest net' T0 A p.id := by
  have hWA : Waiting net net' A = none := by rw [waiting_same (by rw [hA]), hempty]
  have hW : ∀ i, i ≠ A → Waiting net net' i = some p := fun i hi => by
    rw [waiting_eq (hear i hi).2.1]; rfl
  have slaves : ∀ i, (net'.node i).state = .master → i = A := fun i hi => by
    by_cases h : i = A
    · exact h
    · rw [(hear i h).1] at hi; cases hi
  have sentA : (net'.radio A).sent = none := by
    rcases taken_sent r A with h | h
    · exact h
    · rw [h, hWA]
  refine ⟨hl, hs, fun i hi => ?_, by rw [hA]; exact hm, by rw [hA]; exact hsent, sentA,
    fun i => ?_, fun i hi => .inl ⟨(hear i hi).1, (hear i hi).2.2, fun q hq => ?_⟩, ?_, ?_⟩
  · rw [slaves i hi, hA]; exact hT
  · by_cases hi : i = A
    · subst hi
      obtain ⟨l, q, e1, e2⟩ := hsent
      rw [hA]
      exact memory_recent e1 (by simp) (by simp [e2])
    · exact memory_recent (hear i hi).2.1 (by simp) (by simp)
  · rcases taken_sent r i with h | h
    · rw [h] at hq; cases hq
    · rw [h, hW i hi] at hq; cases hq; rfl
  · intro q hq
    rcases taken_cases r with ⟨h, _, _⟩ | ⟨k, p', f1, f2, f3, f4⟩
    · rw [h] at hq; cases hq
    · rw [f1] at hq; cases hq
      by_cases hk : k = A
      · rw [hk, hWA] at f2; cases f2
      · rw [hW k hk] at f2; cases f2; exact .inl rfl
  · intro h i
    rcases taken_cases r with ⟨_, h, _⟩ | ⟨k, p, f1, _⟩
    · exact h i
    · rw [f1] at h; cases h

/-- A `Tick` in which the devices hear a claim: the claimant stays the only master. -/
theorem Contest.claim {n} {net net' : FakeNet n} {T0 A x} (c : Contest net T0 A x)
    (r : Round net net' fun _ => net.air) (hT : T0 < net.now.toNat)
    (hn : net.now.toNat ≤ T0 + 1000) (hw : net.now.toNat + 255000 < 2 ^ 32)
    {q₀ : Packet} (hq₀ : net.packet = some q₀) (hx : q₀.id ≠ x) :
    ∃ B y, Contest net' T0 B y ∧ ∀ i, i ≠ B → (net'.node i).state = .slave := by
  rcases c.slot q₀ hq₀ with h | ⟨B, hB, hBm, hBe⟩
  · exact absurd h hx
  obtain ⟨q, hq, hqs, hql, hqn⟩ : ∃ q : Packet, q.type = .claimMaster ∧ net.packet = some q ∧
      (∃ l, (net.node B).sent = l ++ [q]) ∧ ∀ j, j ≠ B → q.id ∉ memory (net.node j) := by
    rcases c.others B hB with ⟨h1, _⟩ | ⟨_, q, h1, h2, h3, h4⟩
    · rw [hBm] at h1; cases h1
    · rcases h2 with h2 | ⟨_, h2⟩
      · rw [hBe] at h2; cases h2
      · exact ⟨q, h1, h2, h3, h4⟩
  obtain ⟨p, hp, pid, pty⟩ := air_some hqs
  rw [hp] at r
  have hnB : net'.node B = net.node B := by
    refine (c.sound B).master_quiet hBm ?_ ((c.timers B hBm).idle (c.sound B).wf hn) (r.ticks B)
    intro p' hp'
    cases hp'
    obtain ⟨l, hl⟩ := hql
    exact memory_recent hl (by simp) (by simp [pid])
  have hear : ∀ i, i ≠ B → (net'.node i).state = .slave ∧
      (net'.node i).sent = (net.node i).sent ++ [p] ∧
      T0 + 5001 ≤ (net'.node i).timers.heartbeat.toNat := by
    intro i hi
    have hnew : p.id ∉ memory (net.node i) := by rw [pid]; exact hqn i hi
    have slave : (net.node i).state = .slave → (net'.node i).state = .slave ∧
        (net'.node i).sent = (net.node i).sent ++ [p] ∧
        T0 + 5001 ≤ (net'.node i).timers.heartbeat.toNat := fun h1 => by
      obtain ⟨e1, e2, e3⟩ := (c.sound i).slave_hears hw h1 hnew
        (.inr (.inr (pty.trans hq))) (r.ticks i)
      refine ⟨e1, e2, ?_⟩
      rcases e3 with ⟨_, e⟩ | e
      · exact absurd (.inr (pty.trans hq)) e
      · omega
    have master : (net.node i).state = .master → (net'.node i).state = .slave ∧
        (net'.node i).sent = (net.node i).sent ++ [p] ∧
        T0 + 5001 ≤ (net'.node i).timers.heartbeat.toNat := fun h1 => by
      obtain ⟨e1, e2, e3⟩ := (c.sound i).master_hears_claim hw h1 hnew (pty.trans hq) (r.ticks i)
      exact ⟨e1, e2, by omega⟩
    by_cases hA : i = A
    · subst hA; exact master c.master
    · rcases c.others i hA with ⟨h1, _⟩ | ⟨h1, _⟩
      · exact slave h1
      · exact master h1
  refine ⟨B, p.id, settled (tick_sound r c.sound) (r.loss.trans c.loss) r hnB hBm
    (c.timers B hBm) ?_ hBe hear, fun i hi => (hear i hi).1⟩
  obtain ⟨l, hl⟩ := hql
  exact ⟨l, q, hl, pid.symm⟩

/-- At `T0` some slaves became masters; the network took the heartbeat of `A`. -/
structure Start {n} (net : FakeNet n) (T0 : Nat) (A : Fin n) : Prop where
  loss : net.loss = 0
  sound : ∀ i, (net.node i).Sound
  timers : ∀ i, (net.node i).state = .master → Armed T0 (net.node i).timers
  slaves : ∀ i, (net.node i).state = .slave ∨ (net.node i).state = .master
  master : (net.node A).state = .master
  packet : ∃ q : Packet, q.type = .heartbeat ∧ net.packet = some q ∧
    (∃ l, (net.node A).sent = l ++ [q]) ∧ ∀ j, j ≠ A → q.id ∉ memory (net.node j)
  empty : (net.radio A).sent = none

/-- The `Tick` in which the others hear the heartbeat of `A`. -/
theorem Start.tick {n} {net net' : FakeNet n} {T0 A} (c : Start net T0 A)
    (r : Round net net' fun _ => net.air) (hT : net.now.toNat = T0 + 1)
    (hw : net.now.toNat + 255000 < 2 ^ 32) (f : Fresh net net') :
    ∃ x, Contest net' T0 A x ∧
      waits (fun i => (net'.radio i).sent) A + (if net'.packet.isSome then 1 else 0) + 1 ≤ n := by
  obtain ⟨q, hq, hqs, hql, hqn⟩ := c.packet
  obtain ⟨p, hp, pid, pty⟩ := air_some hqs
  rw [hp] at r
  have hnA : net'.node A = net.node A := by
    refine (c.sound A).master_quiet c.master ?_
      ((c.timers A c.master).idle (c.sound A).wf (by omega)) (r.ticks A)
    intro p' hp'
    cases hp'
    obtain ⟨l, hl⟩ := hql
    exact memory_recent hl (by simp) (by simp [pid])
  have ownA : own net net' A = [] := by
    rw [own_known (l := []) (by rw [hnA, List.append_nil])]
    intro p' hp'
    rw [hqs] at hp'; cases hp'
    obtain ⟨l, hl⟩ := hql
    exact memory_recent hl (by simp) (by simp)
  have hear : ∀ i, i ≠ A →
      ((net'.node i).state = .slave ∧ (net'.node i).sent = (net.node i).sent ++ [p] ∧
        T0 + 5001 ≤ (net'.node i).timers.heartbeat.toNat) ∨
      ((net'.node i).state = .master ∧ (net.node i).state = .master ∧
        (∃ c : Packet, c.type = .claimMaster ∧ (net'.node i).sent = (net.node i).sent ++ [p, c]) ∧
        (net'.node i).timers = (net.node i).timers) := by
    intro i hi
    have hnew : p.id ∉ memory (net.node i) := by rw [pid]; exact hqn i hi
    rcases c.slaves i with h1 | h1
    · obtain ⟨e1, e2, e3⟩ := (c.sound i).slave_hears hw h1 hnew
        (.inr (.inl (pty.trans hq))) (r.ticks i)
      refine .inl ⟨e1, e2, ?_⟩
      rcases e3 with ⟨_, e⟩ | e
      · exact absurd (.inl (pty.trans hq)) e
      · omega
    · rcases (c.sound i).master_hears_heartbeat hw h1 hnew (pty.trans hq)
        ((c.timers i h1).idle (c.sound i).wf (by omega)) (r.ticks i) with
        ⟨e1, e2, e3⟩ | ⟨e1, e2, e3⟩
      · exact .inr ⟨e1, h1, e2, e3⟩
      · exact .inl ⟨e1, e2, by omega⟩
  have hsent : ∀ i, i ≠ A → ∃ m : List Packet, (net'.node i).sent = (net.node i).sent ++ p :: m ∧
      own net net' i = m := by
    intro i hi
    rcases hear i hi with ⟨_, e, _⟩ | ⟨_, _, ⟨c, _, e⟩, _⟩
    · exact ⟨[], e, by rw [own_unknown e hqs (hqn i hi)]; rfl⟩
    · exact ⟨[c], e, by rw [own_unknown e hqs (hqn i hi)]; rfl⟩
  have known : ∀ i, p.id ∈ memory (net'.node i) := by
    intro i
    by_cases hi : i = A
    · subst hi
      rw [hnA]
      obtain ⟨l, hl⟩ := hql
      exact memory_recent hl (by simp) (by simp [pid])
    · rcases hear i hi with ⟨_, e, _⟩ | ⟨_, _, ⟨c, _, e⟩, _⟩
      · exact memory_recent e (by simp) (by simp)
      · exact memory_recent e (by simp) (by simp)
  have hWA : Waiting net net' A = none := by rw [waiting_same (by rw [hnA]), c.empty]
  have sentA : (net'.radio A).sent = none := by
    rcases taken_sent r A with h | h
    · exact h
    · rw [h, hWA]
  have hW : ∀ i, i ≠ A → (net'.node i).state = .slave → Waiting net net' i = some p := by
    intro i hi hs
    rcases hear i hi with ⟨_, e, _⟩ | ⟨e, _⟩
    · rw [waiting_eq e]; rfl
    · rw [hs] at e; cases e
  refine ⟨p.id, ⟨r.loss.trans c.loss, tick_sound r c.sound, fun i hi => ?_, by
    rw [hnA]; exact c.master, ?_, sentA, known, fun i hi => ?_, ?_, ?_⟩, by
    rw [count_taken r hWA]; exact waits_lt _ _⟩
  · by_cases h : i = A
    · subst h; rw [hnA]; exact c.timers i c.master
    · rcases hear i h with ⟨e, _⟩ | ⟨_, e1, _, e2⟩
      · rw [hi] at e; cases e
      · rw [e2]; exact c.timers i e1
  · obtain ⟨l, hl⟩ := hql
    exact ⟨l, q, by rw [hnA]; exact hl, pid.symm⟩
  · rcases hear i hi with ⟨e1, e2, e3⟩ | ⟨e1, e2, ⟨cl, e3, e4⟩, e5⟩
    · refine .inl ⟨e1, e3, fun q' hq' => ?_⟩
      rcases taken_sent r i with h | h
      · rw [h] at hq'; cases hq'
      · rw [h, hW i hi e1] at hq'; cases hq'; rfl
    · have hWi : Waiting net net' i = some cl := by rw [waiting_eq e4]; rfl
      have hown : own net net' i = [cl] := by rw [own_unknown e4 hqs (hqn i hi)]; rfl
      have hin : cl ∈ own net net' i := by rw [hown]; simp
      refine .inr ⟨e1, cl, e3, ?_, ⟨(net.node i).sent ++ [p], by rw [e4]; simp⟩, fun j hj hm => ?_⟩
      · rcases taken_cases r with ⟨_, _, h⟩ | ⟨k, p', f1, f2, f3, f4⟩
        · have := h i; rw [hWi] at this; cases this
        · by_cases hik : i = k
          · subst hik
            rw [hWi] at f2; cases f2
            exact .inr ⟨f3, f1⟩
          · rw [f4 i hik]; exact .inl hWi
      · by_cases hjA : j = A
        · subst hjA
          rw [hnA] at hm
          exact f.memory i cl hin j hm
        · obtain ⟨m, g1, g2⟩ := hsent j hjA
          rcases memory_append g1 _ hm with hm | hm
          · exact f.memory i cl hin j hm
          · rcases List.mem_cons.1 hm with hm | hm
            · exact f.packet i cl hin q hqs (hm.trans pid)
            · obtain ⟨q', hq', e⟩ := List.mem_map.1 hm
              exact f.others i j (Ne.symm hj) cl hin q' (g2 ▸ hq') e.symm
  · intro q' hq'
    rcases taken_cases r with ⟨h, _, _⟩ | ⟨k, p', f1, f2, f3, f4⟩
    · rw [h] at hq'; cases hq'
    · rw [f1] at hq'; cases hq'
      have hk : k ≠ A := fun e => by rw [e, hWA] at f2; cases f2
      rcases hear k hk with ⟨e1, _⟩ | ⟨e1, _⟩
      · rw [hW k hk e1] at f2; cases f2; exact .inl rfl
      · exact .inr ⟨k, hk, e1, f3⟩
  · intro h i
    rcases taken_cases r with ⟨_, h, _⟩ | ⟨k, p, f1, _⟩
    · exact h i
    · rw [f1] at h; cases h

end FakeNet
end Firefly
