import Verif.Lemmas.FakeStable

/-! # The network of the integration tests from its construction on -/

namespace Firefly
open Spec

/-- The first `Tick` of a device runs only one radio tick. -/
theorem Node.first_tick {now} {s s' : Node} (wf : s.WF) (hs : s.state = .slave)
    (hr : s.tickRun = false) (hT : now ≤ s.timers.heartbeat)
    (ht : s.tick .host now none now none = .ok s') : s' = { s with tickRun := true } := by
  obtain ⟨s₁, h1, h2⟩ := Node.tick_eq_ops.1 ht
  have c := Node.radioTick_cases wf h1
  clear h1 ht
  have key : s₁ = s := by
    have hd : s.delivered none = none := rfl
    have he : s.timerExpired now ≠ .heartbeat := by
      rw [Ne, timerExpired_heartbeat wf]
      rintro ⟨_, e⟩
      rw [BitVec.lt_def] at e; rw [BitVec.le_def] at hT; omega
    clear h2
    cases c <;> simp_all
  subst key
  rcases h2 with ⟨_, h2⟩ | ⟨e, _⟩
  · have h2 : Except.ok { s₁ with tickRun := true } = Except.ok s' := h2
    injection h2 with h2
    exact h2.symm
  · rw [hr] at e; cases e

namespace FakeNet

/-! ### How many masters -/

theorem getNumMasters_eq {n} (net : FakeNet n) : net.getNumMasters =
    (List.finRange n).countP fun i => decide ((net.node i).getCurrentState = .master) := by
  have : ∀ (l : List (Fin n)) (k : Nat),
      l.foldl (fun k i => if (net.node i).getCurrentState = .master then k + 1 else k) k =
        k + l.countP fun i => decide ((net.node i).getCurrentState = .master) := by
    intro l
    induction l with
    | nil => intro k; rfl
    | cons i l ih =>
      intro k
      rw [List.foldl_cons, ih, List.countP_cons]
      by_cases h : (net.node i).getCurrentState = .master
      · rw [if_pos h, if_pos (by simpa using h)]; omega
      · rw [if_neg h, if_neg (by simpa using h)]; omega
  rw [getNumMasters, this, Nat.zero_add]

theorem getNumMasters_zero {n} {net : FakeNet n} :
    net.getNumMasters = 0 ↔ ∀ i, (net.node i).state ≠ .master := by
  rw [getNumMasters_eq, List.countP_eq_zero]
  constructor
  · exact fun h i e => h i (List.mem_finRange i) (decide_eq_true e)
  · exact fun h i _ e => h i (of_decide_eq_true e)

theorem getNumMasters_one {n} {net : FakeNet n} {A : Fin n} (h : OnlyMaster net A) :
    net.getNumMasters = 1 := by
  rw [getNumMasters_eq, ← countP_drop (List.nodup_finRange n) (List.mem_finRange A)
    (q := fun _ => false)]
  · simp
  · simp [h A]
  · rfl
  · intro i hi; simp [h i, hi]

theorem Stable.only {n} {net : FakeNet n} {A t} (c : Stable net A t) : OnlyMaster net A := by
  obtain ⟨_, _, _, _, _, _, c⟩ := c
  intro i
  by_cases h : i = A
  · subst h; rw [if_pos rfl]; exact c.master
  · rw [if_neg h]; exact (c.slaves i h).1

/-! ### Before the first master -/

/-- A device that has heard and done nothing. -/
structure Silent {n} (net : FakeNet n) (i : Fin n) : Prop where
  sound : (net.node i).Sound
  slave : (net.node i).state = .slave
  sent : (net.node i).sent = []
  radio : (net.radio i).sent = none
  seen : (net.node i).effectChangeSeenAt = 0
  deadline : i.val + 5001 ≤ (net.node i).timers.heartbeat.toNat ∧
    (net.node i).timers.heartbeat.toNat ≤ i.val + 7000

/-- No device has done anything. -/
structure Idle {n} (net : FakeNet n) : Prop where
  loss : net.loss = 0
  packet : net.packet = none
  silent : ∀ i, Silent net i

theorem Booted.idle {n} {net : FakeNet n} (hn : n ≤ 99) (b : net.Booted) : Idle net := by
  refine ⟨b.loss, b.packet, fun i => ?_⟩
  obtain ⟨rand, junk, junk', seeds, h⟩ := b.device i
  unfold boot newNode at h
  obtain ⟨node, hnode, h⟩ := Node.bind_ok h
  obtain ⟨r, _, hnode⟩ := Node.bind_ok hnode
  obtain ⟨ht, hr⟩ := step_tick h
  have hi : (BitVec.ofNat 32 (i.val + 1)).toNat = i.val + 1 := by
    rw [BitVec.toNat_ofNat]; omega
  have hw : (BitVec.ofNat 32 (i.val + 1)).toNat + 255000 < 2 ^ 32 := by omega
  generalize hnow : BitVec.ofNat 32 (i.val + 1) = now at *
  have facts : node.WF ∧ node.nm.Repr (node.sent.map (·.id)).reverse ∧ node.tickRun = false ∧
      node.state = .slave ∧ node.sent = [] ∧ node.effectChangeSeenAt = 0 ∧
      node.timers.heartbeat = now + BitVec.ofNat 32 (5000 + rand 0 % 2000) := by
    cases hnode
    have hrun : Firefly.Run .host now [] (Node.init now rand junk junk') :=
      ⟨rand, junk, junk', .nil⟩
    have hwf : (Node.init now rand junk junk').WF := Node.WF.init
    refine ⟨⟨hwf.1, hwf.2, hwf.3⟩, hrun.remembers, ?_, ?_, ?_, ?_, ?_⟩
    all_goals
      simp only [Node.setNumEffects, Node.setNumPalettes, Node.init, Node.beginSlave,
        Node.armSlaveTimeout_eq]
  obtain ⟨f1, f2, f3, f4, f5, f6, f7⟩ := facts
  have hb := Node.timeout_toNat hw (rand 0)
  have key : net.node i = { node with tickRun := true } := by
    refine Node.first_tick f1 f4 f3 ?_ ht
    rw [BitVec.le_def, f7]; omega
  have hsent : (net.radio i).sent = none := by
    have : net.radio i = FakeDevice.handOver FakeRadio.init node (net.node i) := hr
    rw [this, handOver_sent, key, f5]; rfl
  refine ⟨?_, ?_, ?_, hsent, ?_, ?_⟩
  · rw [key]; exact ⟨⟨f1.1, f1.2, f1.3⟩, f2, rfl⟩
  · rw [key]; exact f4
  · rw [key]; exact f5
  · rw [key]; exact f6
  · rw [key]
    show _ ≤ node.timers.heartbeat.toNat ∧ node.timers.heartbeat.toNat ≤ _
    rw [f7, hb]; omega

/-- A `Tick` before there is a master. -/
theorem Idle.tick {n} {net net' : FakeNet n} (c : Idle net)
    (r : Round net net' fun _ => net.air) (hn : net.now.toNat ≤ 50000) (f : Fresh net net') :
    (Idle net' ∧ ∀ i, net.now.toNat ≤ (net.node i).timers.heartbeat.toNat) ∨
      ∃ A, Start net' net.now.toNat A := by
  have hw : net.now.toNat + 255000 < 2 ^ 32 := by omega
  have hair : net.air = none := by unfold air; rw [c.packet]; rfl
  rw [hair] at r
  have quiet : ∀ i, net.now.toNat ≤ (net.node i).timers.heartbeat.toNat →
      net'.node i = net.node i := fun i hi =>
    (c.silent i).sound.slave_quiet (c.silent i).slave (rx := none) (fun _ h => by cases h)
      (BitVec.le_def.2 hi) (r.ticks i)
  have over : ∀ i, (net.node i).timers.heartbeat.toNat < net.now.toNat →
      (net'.node i).state = .master ∧
      (∃ p : Packet, p.type = .heartbeat ∧ (net'.node i).sent = [p] ∧ own net net' i = [p]) ∧
      Armed net.now.toNat (net'.node i).timers := by
    intro i hi
    have s := c.silent i
    have hdl := s.deadline
    have hdelay : Node.takeoverDelay net.now (net.node i).effectChangeSeenAt = 60000 - net.now := by
      rw [s.seen]
      unfold Node.takeoverDelay kChangeEffectInterval
      rw [show net.now - 0 = net.now from BitVec.sub_zero _, if_neg]
      rw [BitVec.lt_def, show (60000 : U32).toNat = 60000 from rfl]
      omega
    have hval : (60000 - net.now : U32).toNat = 60000 - net.now.toNat := by
      rw [BitVec.toNat_sub_of_le (by rw [BitVec.le_def, show (60000 : U32).toNat = 60000 from rfl]; omega)]
      rfl
    obtain ⟨e1, ⟨p, e2, e3⟩, e4, e5, e6⟩ := s.sound.slave_takes_over hw s.slave
      ⟨fun e => by rw [e] at hdl; exact absurd hdl.1 (by simp), BitVec.lt_def.2 hi⟩
      (by rw [hdelay]; intro e; rw [e] at hval; simp at hval; omega) (r.ticks i)
    refine ⟨e1, ⟨p, e2, by rw [e3, s.sent]; rfl, ?_⟩, ?_, ?_, ?_⟩
    · exact own_known e3 (by rw [c.packet]; intro _ h; cases h)
    · rw [e4, Node.add_toNat hw (by decide)]; rfl
    · rw [e5, Node.add_toNat hw (by decide)]; rfl
    · rw [e6, hdelay, Node.add_toNat hw (by rw [hval]; omega), hval]; omega
  by_cases hq : ∀ i, net.now.toNat ≤ (net.node i).timers.heartbeat.toNat
  · left
    have hnode : net'.node = net.node := funext fun i => quiet i (hq i)
    have hW : ∀ i, Waiting net net' i = none := fun i => by
      rw [waiting_same (by rw [hnode]), (c.silent i).radio]
    have hrad : ∀ i, (net'.radio i).sent = none := fun i => by
      rcases taken_sent r i with h | h
      · exact h
      · rw [h, hW]
    refine ⟨⟨r.loss.trans c.loss, ?_, fun i => ?_⟩, hq⟩
    · rcases taken_cases r with ⟨h, _⟩ | ⟨k, p, _, h, _⟩
      · exact h
      · rw [hW] at h; cases h
    · obtain ⟨h1, h2, h3, h4, h5, h6⟩ := c.silent i
      exact ⟨by rw [hnode]; exact h1, by rw [hnode]; exact h2, by rw [hnode]; exact h3, hrad i,
        by rw [hnode]; exact h5, by rw [hnode]; exact h6⟩
  · right
    have split : ∀ i, net.now.toNat ≤ (net.node i).timers.heartbeat.toNat ∨
        (net.node i).timers.heartbeat.toNat < net.now.toNat := fun i => by omega
    have hWq : ∀ i, net.now.toNat ≤ (net.node i).timers.heartbeat.toNat →
        Waiting net net' i = none := fun i hi => by
      rw [waiting_same (by rw [quiet i hi]), (c.silent i).radio]
    rcases taken_cases r with ⟨_, _, h⟩ | ⟨A, p, h1, h2, h3, _⟩
    · refine absurd (fun i => ?_) hq
      rcases split i with hi | hi
      · exact hi
      · obtain ⟨_, ⟨p, _, e, _⟩, _⟩ := over i hi
        have := h i
        rw [waiting_eq (l := [p]) (by rw [e, (c.silent i).sent]; rfl)] at this
        cases this
    · have hA : (net.node A).timers.heartbeat.toNat < net.now.toNat := by
        rcases split A with hi | hi
        · rw [hWq A hi] at h2; cases h2
        · exact hi
      obtain ⟨a1, ⟨q, a2, a3, a4⟩, _⟩ := over A hA
      have hpq : p = q := by
        rw [waiting_eq (l := [q]) (by rw [a3, (c.silent A).sent]; rfl)] at h2
        cases h2; rfl
      subst hpq
      refine ⟨A, r.loss.trans c.loss, tick_sound r fun i => (c.silent i).sound, fun i hi => ?_,
        fun i => ?_, a1, ⟨p, a2, h1, ⟨[], a3⟩, fun j hj hm => ?_⟩, h3⟩
      · rcases split i with h | h
        · rw [quiet i h, (c.silent i).slave] at hi; cases hi
        · exact (over i h).2.2
      · rcases split i with h | h
        · exact .inl (by rw [quiet i h]; exact (c.silent i).slave)
        · exact .inr (over i h).1
      · have hin : p ∈ own net net' A := by rw [a4]; simp
        rcases split j with h | h
        · rw [quiet j h] at hm
          exact f.memory A p hin j hm
        · obtain ⟨_, ⟨q, _, b3, b4⟩, _⟩ := over j h
          rcases memory_append (s := net.node j) (l := [q]) (by rw [b3, (c.silent j).sent]; rfl) _ hm
            with hm | hm
          · exact f.memory A p hin j hm
          · exact f.others A j (Ne.symm hj) p hin q (by rw [b4]; simp) (by simpa using hm)

/-! ### From the election to stability -/

/-- Contest decided. -/
theorem Contest.stable {n} {net : FakeNet n} {T0 A x t} (c : Contest net T0 A x)
    (hs : ∀ i, i ≠ A → (net.node i).state = .slave) (hn : n ≤ 99) (h2 : 2 ≤ T0)
    (h1 : T0 + 1 ≤ t) (ht : t ≤ T0 + n + 1) : Stable net A t := by
  obtain ⟨l, q, hl, hq⟩ := c.recent
  obtain ⟨t1, t2, t3⟩ := c.timers A c.master
  have old : ∀ p : Packet, p.id = x → Old net A [q] p := fun p hp =>
    ⟨by simp [hp, hq], fun i _ => hp ▸ c.known i⟩
  have slot : ∀ p ∈ net.packet, p.id = x := fun p hp => by
    rcases c.slot p hp with h | ⟨i, hi, hm, _⟩
    · exact h
    · rw [hs i hi] at hm; cases hm
  have hlt := waits_lt (fun i => (net.radio i).sent) A
  refine ⟨T0, T0 + 1, T0, 1, l, [q], c.loss, c.sound, c.master, fun i hi => ?_, h1, t1, by omega,
    ⟨by omega, by omega, by omega, by omega⟩, hl, by omega, ?_, ?_, ?_, fun i hi p hp => ?_,
    fun p hp => ?_, .inl (.inl (by omega))⟩
  · rcases c.others i hi with ⟨e1, e2, _⟩ | ⟨e1, _⟩
    · exact ⟨e1, by omega⟩
    · rw [hs i hi] at e1; cases e1
  · unfold late
    rw [if_pos (Nat.le_refl _)]
    simp only [List.length_singleton]
    omega
  · unfold load
    rw [c.empty]
    simp only [Option.isSome_none, List.length_singleton]
    have : (if false = true then n else 0) = 0 := rfl
    omega
  · cases hp : net.packet with
    | none => exact .inl ⟨rfl, c.idle hp⟩
    | some p => exact .inr ⟨p, rfl, .inl ⟨old p (slot p hp), Nat.le_refl _⟩⟩
  · rcases c.others i hi with ⟨_, _, e⟩ | ⟨e1, _⟩
    · exact old p (e p hp)
    · rw [hs i hi] at e1; cases e1
  · rw [c.empty] at hp; cases hp

theorem Contest.sole {n} {net : FakeNet n} {T0 A x} (c : Contest net T0 A x)
    (h : waits (fun i => (net.radio i).sent) A + (if net.packet.isSome then 1 else 0) = 0) :
    ∀ i, i ≠ A → (net.node i).state = .slave := by
  intro i hi
  rcases c.others i hi with ⟨e1, _⟩ | ⟨_, q, _, e, _⟩
  · exact e1
  · rcases e with e | ⟨_, e⟩
    · have := waits_pos (f := fun i => (net.radio i).sent) hi (by rw [e]; rfl)
      omega
    · rw [e] at h
      simp at h

/-- A `Tick` of a contest. -/
theorem Contest.tick {n} {net net' : FakeNet n} {T0 A x} (c : Contest net T0 A x)
    (r : Round net net' fun _ => net.air) (hT : T0 < net.now.toNat)
    (hn : net.now.toNat ≤ T0 + 1000) (hw : net.now.toNat + 255000 < 2 ^ 32) :
    (Contest net' T0 A x ∧
      waits (fun i => (net'.radio i).sent) A + (if net'.packet.isSome then 1 else 0) =
        waits (fun i => (net.radio i).sent) A) ∨
    ∃ B y, Contest net' T0 B y ∧ ∀ i, i ≠ B → (net'.node i).state = .slave := by
  by_cases hx : ∀ q ∈ net.packet, q.id = x
  · obtain ⟨h1, _, h2⟩ := c.quiet r hn hx
    exact .inl ⟨h1, h2⟩
  · cases hp : net.packet with
    | none => exact absurd (by rw [hp]; intro _ h; cases h) hx
    | some q =>
      refine .inr (c.claim r hT hn hw hp fun e => hx fun q' hq' => ?_)
      rw [hp] at hq'; cases hq'; exact e

end FakeNet

open FakeNet

variable {n : Nat} {net : Nat → FakeNet n} {d : Nat → U32} {N : Nat}

theorem Spec.Course.round (c : Course net d N) {k} (hk : k < N)
    (hl : (net k).loss = 0) :
    Round ((net k).advanceMillis (d k)) (net (k + 1)) fun _ =>
      ((net k).advanceMillis (d k)).air := by
  obtain ⟨draws, h⟩ := c.step k hk
  have r := tick_round h
  have : ((net k).advanceMillis (d k)).staged draws = fun _ =>
      ((net k).advanceMillis (d k)).air := funext fun i => staged_air hl draws i
  rwa [this] at r

theorem Spec.Course.slow (c : Course net d N) {k} (hk : k < N)
    (hm : (net k).getNumMasters ≠ 0) :
    ((net k).advanceMillis (d k)).now.toNat = (net k).now.toNat + 1 := by
  have := c.clock k (by omega)
  show ((net k).now + d k).toNat = _
  rw [c.pace k hk hm, Node.add_toNat this (by decide)]
  rfl

/-- Until there is a master nothing happens. -/
theorem Spec.Course.waiting (c : Course net d N) (hn : n ≤ 99) {k : Nat} (hk : k ≤ N)
    (hm : ∀ j ≤ k, (net j).getNumMasters = 0) :
    Idle (net k) ∧ (0 < k → ∀ i : Fin n, (net k).now.toNat ≤ i.val + 7000) ∧ (net k).now.toNat ≤ 50000 := by
  induction k with
  | zero =>
    refine ⟨c.start.idle hn, fun h => absurd h (by omega), ?_⟩
    rw [c.start.now, BitVec.toNat_ofNat]; omega
  | succ k ih =>
    obtain ⟨i1, _, i2⟩ := ih (by omega) fun j hj => hm j (by omega)
    have r := c.round (k := k) (by omega) i1.loss
    have he := c.early k (by omega) (hm k (by omega))
    have hnow : ((net k).advanceMillis (d k)).now.toNat = (net k).now.toNat + (d k).toNat := by
      show ((net k).now + d k).toNat = _
      rw [BitVec.toNat_add]; omega
    have id : Idle ((net k).advanceMillis (d k)) := ⟨i1.loss, i1.packet, fun i =>
      ⟨(i1.silent i).1, (i1.silent i).2, (i1.silent i).3, (i1.silent i).4, (i1.silent i).5,
        (i1.silent i).6⟩⟩
    have hnow' : (net (k + 1)).now.toNat = (net k).now.toNat + (d k).toNat := by
      rw [r.now]; exact hnow
    rcases id.tick r (by omega) (c.fresh k (by omega)) with ⟨h1, h2⟩ | ⟨A, h⟩
    · refine ⟨h1, fun _ i => ?_, by omega⟩
      have := h2 i
      have := (id.silent i).deadline
      omega
    · exact absurd h.master (getNumMasters_zero.1 (hm (k + 1) (Nat.le_refl _)) A)

/-- The `Tick` in which the first master appears. -/
theorem Spec.Course.appears (c : Course net d N) (hn : n ≤ 99) {k : Nat} (hk : k ≤ N)
    (hm : (net k).getNumMasters ≠ 0) (hm' : ∀ j < k, (net j).getNumMasters = 0) :
    ∃ A, Start (net k) (net k).now.toNat A ∧ 5001 < (net k).now.toNat ∧ 0 < k ∧
      (net k).now.toNat ≤ 50000 := by
  cases k with
  | zero =>
    refine absurd (getNumMasters_zero.2 fun i => ?_) hm
    rw [((c.start.idle hn).silent i).slave]; decide
  | succ k =>
    obtain ⟨i1, _, i2⟩ := c.waiting hn (k := k) (by omega) fun j hj => hm' j (by omega)
    have r := c.round (k := k) (by omega) i1.loss
    have he := c.early k (by omega) (hm' k (by omega))
    have hnow : ((net k).advanceMillis (d k)).now.toNat = (net k).now.toNat + (d k).toNat := by
      show ((net k).now + d k).toNat = _
      rw [BitVec.toNat_add]; omega
    have id : Idle ((net k).advanceMillis (d k)) := ⟨i1.loss, i1.packet, fun i =>
      ⟨(i1.silent i).1, (i1.silent i).2, (i1.silent i).3, (i1.silent i).4, (i1.silent i).5,
        (i1.silent i).6⟩⟩
    rcases id.tick r (by omega) (c.fresh k (by omega)) with ⟨h1, h2⟩ | ⟨A, h⟩
    · refine absurd (getNumMasters_zero.2 fun i => ?_) hm
      rw [(h1.silent i).slave]; decide
    · rw [← r.now] at h
      refine ⟨A, h, ?_, by omega, by rw [r.now]; omega⟩
      have hA : ¬ ((net k).advanceMillis (d k)).now.toNat ≤ ((net k).node A).timers.heartbeat.toNat := by
        intro hle
        have hq := (id.silent A).sound.slave_quiet (id.silent A).slave
          (rx := ((net k).advanceMillis (d k)).air)
          (by unfold air; rw [id.packet]; intro _ h; cases h) (BitVec.le_def.2 hle) (r.ticks A)
        have := h.master
        rw [hq, (id.silent A).slave] at this
        cases this
      have := (id.silent A).deadline
      have e : (net (k + 1)).now.toNat = ((net k).advanceMillis (d k)).now.toNat := by rw [r.now]
      have e2 : (((net k).advanceMillis (d k)).node A).timers.heartbeat.toNat =
        ((net k).node A).timers.heartbeat.toNat := rfl
      omega

theorem Stable.later {c : Course net d N} (hn : n ≤ 99) {k : Nat} (hk : k < N) {A}
    (s : Stable (net k) A (net k).now.toNat) : Stable (net (k + 1)) A (net (k + 1)).now.toNat := by
  have hm : (net k).getNumMasters ≠ 0 := by rw [getNumMasters_one s.only]; decide
  have hs := c.slow hk hm
  have hl : (net k).loss = 0 := by obtain ⟨_, _, _, _, _, _, s⟩ := s; exact s.loss
  have r := c.round hk hl
  have hw := c.clock (k + 1) (by omega)
  rw [r.now] at hw ⊢
  have s' : Stable ((net k).advanceMillis (d k)) A (net k).now.toNat := by
    obtain ⟨a1, a2, a3, a4, a5, a6, s⟩ := s
    exact ⟨a1, a2, a3, a4, a5, a6, s.1, s.2, s.3, s.4, s.5, s.6, s.7, s.8, s.9, s.10, s.11, s.12,
      s.13, s.14, s.15, s.16⟩
  rw [hs]
  exact s'.tick hn r hs hw (c.fresh k hk)

/-- The election takes `n` `Tick`s. -/
theorem Spec.Course.elects (c : Course net d N) (hn : n ≤ 99) {k₀ : Nat}
    (hm : (net k₀).getNumMasters ≠ 0) (hm' : ∀ j < k₀, (net j).getNumMasters = 0) {j : Nat}
    (hj : k₀ + 1 + j ≤ N) :
    (net (k₀ + 1 + j)).now.toNat = (net k₀).now.toNat + 1 + j ∧
    ((j < n ∧ ∃ A x, Contest (net (k₀ + 1 + j)) (net k₀).now.toNat A x ∧
      waits (fun i => ((net (k₀ + 1 + j)).radio i).sent) A +
        (if (net (k₀ + 1 + j)).packet.isSome then 1 else 0) + 1 + j ≤ n) ∨
     ∃ A, Stable (net (k₀ + 1 + j)) A (net (k₀ + 1 + j)).now.toNat) := by
  obtain ⟨A, st, h5, _, h50⟩ := c.appears hn (k := k₀) (by omega) hm hm'
  have hpos : 0 < n := A.pos
  induction j with
  | zero =>
    have r := c.round (k := k₀) (by omega) st.loss
    have hs := c.slow (k := k₀) (by omega) hm
    have st' : Start ((net k₀).advanceMillis (d k₀)) (net k₀).now.toNat A :=
      ⟨st.1, st.2, st.3, st.4, st.5, st.6, st.7⟩
    obtain ⟨x, h1, h2⟩ := st'.tick r hs (by omega) (c.fresh k₀ (by omega))
    refine ⟨by show (net (k₀ + 1)).now.toNat = _; rw [r.now, hs], .inl ⟨hpos, A, x, h1, h2⟩⟩
  | succ j ih =>
    obtain ⟨h1, h2⟩ := ih (by omega)
    have hkj : k₀ + 1 + (j + 1) = k₀ + 1 + j + 1 := by omega
    rw [hkj]
    rcases h2 with ⟨hjn, B, x, h2, h3⟩ | ⟨B, h2⟩
    · have hm2 : (net (k₀ + 1 + j)).getNumMasters ≠ 0 := fun e =>
        getNumMasters_zero.1 e B h2.master
      have hs := c.slow (k := k₀ + 1 + j) (by omega) hm2
      have r := c.round (k := k₀ + 1 + j) (by omega) h2.loss
      have hnow : (net (k₀ + 1 + j + 1)).now.toNat = (net k₀).now.toNat + 1 + (j + 1) := by
        rw [r.now, hs]; omega
      refine ⟨hnow, ?_⟩
      have h2' : Contest ((net (k₀ + 1 + j)).advanceMillis (d (k₀ + 1 + j))) (net k₀).now.toNat B x :=
        ⟨h2.1, h2.2, h2.3, h2.4, h2.5, h2.6, h2.7, h2.8, h2.9, h2.10⟩
      by_cases hz : waits (fun i => ((net (k₀ + 1 + j)).radio i).sent) B +
          (if (net (k₀ + 1 + j)).packet.isSome then 1 else 0) = 0
      · have hst : Stable (net (k₀ + 1 + j)) B (net (k₀ + 1 + j)).now.toNat :=
          h2.stable (h2.sole hz) hn (by omega) (by omega) (by omega)
        exact .inr ⟨B, Stable.later (c := c) hn (by omega) hst⟩
      · rcases h2'.tick r (by omega) (by omega) (by omega) with ⟨g1, g2⟩ | ⟨B', y, g1, g2⟩
        · have hp : (net (k₀ + 1 + j)).packet.isSome = true := by
            cases hp : (net (k₀ + 1 + j)).packet with
            | some _ => rfl
            | none =>
              refine absurd ?_ hz
              rw [hp, waits_zero (h2.idle hp)]; rfl
          rw [hp] at h3
          refine .inl ⟨by simp at h3; omega, B, x, g1, ?_⟩
          have e : waits (fun i => (((net (k₀ + 1 + j)).advanceMillis (d (k₀ + 1 + j))).radio i).sent) B
            = waits (fun i => ((net (k₀ + 1 + j)).radio i).sent) B := rfl
          simp only [if_true] at h3
          omega
        · exact .inr ⟨B', g1.stable g2 hn (by omega) (by omega) (by omega)⟩
    · have hm2 : (net (k₀ + 1 + j)).getNumMasters ≠ 0 := by
        rw [getNumMasters_one h2.only]; decide
      have hs := c.slow (k := k₀ + 1 + j) (by omega) hm2
      have hl : (net (k₀ + 1 + j)).loss = 0 := by obtain ⟨_, _, _, _, _, _, s⟩ := h2; exact s.loss
      have r := c.round (k := k₀ + 1 + j) (by omega) hl
      exact ⟨by rw [r.now, hs]; omega, .inr ⟨B, Stable.later (c := c) hn (by omega) h2⟩⟩

end Firefly
