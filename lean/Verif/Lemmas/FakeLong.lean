import Verif.Lemmas.FakeFirst

/-! # Random numbers with which the test network runs for hours -/

namespace Firefly
open Spec

/-- The random numbers `p`, `p + 1`, `p + 2`, … -/
def upFrom (p : Nat) : Rand := fun m => p + m

theorem upFrom_rest (p : Nat) : (upFrom p).rest = upFrom (p + 1) := by
  funext m
  show p + (m + 1) = p + 1 + m
  omega

theorem upFrom_sendId {p : Nat} (h : p + 2 < 65536) : (sendId .host (upFrom p)).toNat = p + 2 := by
  show (BitVec.ofNat 16 (2 + (p + 0) % 65535)).toNat = _
  rw [BitVec.toNat_ofNat]
  omega

namespace Node

/-- The sum of a master's timers. -/
def sum (s : Node) : Nat :=
  s.timers.heartbeat.toNat + s.timers.changeEffect.toNat + s.timers.broadcastEffect.toNat

/-- How far away a master's timers are at the time `T`. -/
structure Within (s : Node) (T : Nat) : Prop where
  beat : s.timers.heartbeat.toNat ≤ T + 1000
  change : s.timers.changeEffect.toNat ≤ T + 60000
  bcast : s.timers.broadcastEffect.toNat ≤ T + 2000

theorem Within.mono {s : Node} {T T' : Nat} (h : s.Within T) (hT : T ≤ T') : s.Within T' :=
  ⟨Nat.le_trans h.1 (by omega), Nat.le_trans h.2 (by omega), Nat.le_trans h.3 (by omega)⟩

/-- The numbers a device draws in a radio tick in which it hears nothing new. -/
theorem TickCase.draws {now rx} {s s' : Node} (wf : s.WF) (hd : s.delivered rx = none)
    (c : TickCase .host now rx s s') (hw : now.toNat + 255000 < 2 ^ 32) {p : Nat}
    (hr : s.rand = upFrom p) (hp : p + 5 < 65536) :
    ∃ l p', s'.sent = s.sent ++ l ∧ s'.rand = upFrom p' ∧ p ≤ p' ∧ p' ≤ p + 3 ∧ l.length ≤ 1 ∧
      (∀ q ∈ l, p + 1 < q.id.toNat ∧ q.id.toNat ≤ p' + 1) ∧
      (s.state = .master → 1000 * p' + s.sum ≤ 1000 * p + s'.sum) ∧
      (s'.state = .master → s.state = .slave ∨ s.Within now.toNat → s'.Within now.toNat) := by
  have add : ∀ x : U32, x.toNat ≤ 255000 → (now + x).toNat = now.toNat + x.toNat := fun x hx =>
    add_toNat hw hx
  have a1 : (now + 1000 : U32).toNat = now.toNat + 1000 := add _ (by decide)
  have a2 : (now + 2000 : U32).toNat = now.toNat + 2000 := add _ (by decide)
  have a3 : (now + 60000 : U32).toNat = now.toNat + 60000 := add _ (by decide)
  have sid := upFrom_sendId (p := p) (by omega)
  cases c with
  | slaveHeartbeat _ e | slaveClaim _ e | slaveEffect _ e | slaveControl _ e =>
    rw [hd] at e; cases e
  | electionWon _ e | electionLost _ e | masterClaim _ e | masterEffect _ e | masterControl _ e =>
    rw [hd] at e; cases e
  | other _ _ _ e => rw [hd] at e; cases e
  | slaveQuiet | masterQuiet =>
    exact ⟨[], p, by simp, hr, Nat.le_refl _, by omega, by simp, fun q hq => (by cases hq),
      fun _ => Nat.le_refl _, fun e h => h.elim (fun e' => by simp_all) id⟩
  | takeOver _ hs =>
    refine ⟨[_], p + 1, rfl, ?_, by omega, by omega, by simp, fun q hq => ?_, fun e => ?_, fun _ _ => ?_⟩
    · show s.rand.rest = _
      rw [hr, upFrom_rest]
    · rw [List.mem_singleton.1 hq]
      show p + 1 < (sendId .host s.rand).toNat ∧ (sendId .host s.rand).toNat ≤ _
      rw [hr, sid]; omega
    · rw [hs] at e; cases e
    · have hd : (takeoverDelay now s.effectChangeSeenAt).toNat ≤ 60000 := by
        unfold takeoverDelay kChangeEffectInterval
        split
        · decide
        · rename_i hlt
          rw [BitVec.lt_def, Nat.not_lt] at hlt
          rw [BitVec.toNat_sub_of_le (BitVec.le_def.2 hlt)]
          exact Nat.sub_le _ _
      refine ⟨Nat.le_of_eq a1, ?_, Nat.le_of_eq a2⟩
      show (if takeoverDelay now s.effectChangeSeenAt = 0 then 0
          else now + takeoverDelay now s.effectChangeSeenAt : U32).toNat ≤ _
      split
      · exact Nat.zero_le _
      · rw [add _ (by omega)]; omega
  | beat _ hs e =>
    refine ⟨[_], p + 1, rfl, ?_, by omega, by omega, by simp, fun q hq => ?_, fun _ => ?_, fun _ hb => ?_⟩
    · show s.rand.rest = _
      rw [hr, upFrom_rest]
    · rw [List.mem_singleton.1 hq]
      show p + 1 < (sendId .host s.rand).toNat ∧ (sendId .host s.rand).toNat ≤ _
      rw [hr, sid]; omega
    · have := BitVec.lt_def.1 ((timerExpired_heartbeat wf).1 e).2
      show 1000 * (p + 1) + s.sum ≤ 1000 * p + ((now + 1000 : U32).toNat +
        s.timers.changeEffect.toNat + s.timers.broadcastEffect.toNat)
      unfold sum
      omega
    · rcases hb with hb | hb
      · rw [hs] at hb; cases hb
      · exact ⟨Nat.le_of_eq a1, hb.2, hb.3⟩
  | «repeat» _ hs e =>
    refine ⟨[_], p + 1, rfl, ?_, by omega, by omega, by simp, fun q hq => ?_, fun _ => ?_, fun _ hb => ?_⟩
    · show s.rand.rest = _
      rw [hr, upFrom_rest]
    · rw [List.mem_singleton.1 hq]
      show p + 1 < (sendId .host s.rand).toNat ∧ (sendId .host s.rand).toNat ≤ _
      rw [hr, sid]; omega
    · have := BitVec.lt_def.1 ((expired_broadcast_iff wf).1 e).2.2.2
      show 1000 * (p + 1) + s.sum ≤ 1000 * p + (s.timers.heartbeat.toNat +
        s.timers.changeEffect.toNat + (now + 2000 : U32).toNat)
      unfold sum
      omega
    · rcases hb with hb | hb
      · rw [hs] at hb; cases hb
      · exact ⟨hb.1, hb.2, Nat.le_of_eq a2⟩
  | change _ hs e a b r r' he hp' =>
    have two : ∀ {m : U8} {p : Nat} {x : U16} {r : Rand},
        randomRange .host 0 (m.setWidth 16) (upFrom p) = .ok (x, r) → r = upFrom (p + 1) := by
      intro m p x r h
      unfold randomRange at h
      dsimp only at h
      split at h
      · cases h
      · have := congrArg Prod.snd (Except.ok.inj h)
        have this : (upFrom p).rest = r := this
        rw [← this]
        exact upFrom_rest p
    rw [hr] at he
    have hr1 := two he
    rw [hr1] at hp'
    have hr2 := two hp'
    subst hr2
    have sid2 := upFrom_sendId (p := p + 1 + 1) (by omega)
    refine ⟨[_], p + 3, rfl, ?_, by omega, by omega, by simp, fun q hq => ?_, fun _ => ?_, fun _ hb => ?_⟩
    · show (upFrom (p + 1 + 1)).rest = _
      rw [upFrom_rest]
    · rw [List.mem_singleton.1 hq]
      show p + 1 < (sendId .host (upFrom (p + 1 + 1))).toNat ∧ (sendId .host _).toNat ≤ _
      rw [sid2]; omega
    · have := BitVec.lt_def.1 ((expired_change_iff wf).1 e).2.2
      have e' : (afterChange .host now a b (upFrom (p + 1 + 1)) s).sum = s.timers.heartbeat.toNat +
          (now + kChangeEffectInterval).toNat + s.timers.broadcastEffect.toNat := by
        simp only [sum, afterChange, afterSend]
      have a3' : (now + kChangeEffectInterval).toNat = now.toNat + 60000 := a3
      rw [e', a3']
      unfold sum
      omega
    · rcases hb with hb | hb
      · rw [hs] at hb; cases hb
      · have e' : (afterChange .host now a b (upFrom (p + 1 + 1)) s).timers =
            { s.timers with changeEffect := now + kChangeEffectInterval } := by
          simp only [afterChange, afterSend]
        have a3' : (now + kChangeEffectInterval).toNat = now.toNat + 60000 := a3
        exact ⟨by rw [e']; exact hb.1, by rw [e']; exact Nat.le_of_eq a3', by rw [e']; exact hb.3⟩

/-- The numbers a master draws in a `Tick` in which it hears nothing but its own packets. -/
theorem Sound.master_draws {now rx} {s s' : Node} (h : s.Sound) (hs : s.state = .master)
    {l m : List Packet} (hm : s.sent = l ++ m) (hlen : m.length ≤ 4)
    (hk : ∀ p ∈ rx, p.id ∈ m.map (·.id)) (hw : now.toNat + 255000 < 2 ^ 32)
    (ht : s.tick .host now rx now rx = .ok s') {p : Nat} (hr : s.rand = upFrom p)
    (hp : p + 8 < 65536) :
    ∃ l' p', s'.sent = s.sent ++ l' ∧ s'.rand = upFrom p' ∧ p ≤ p' ∧
      (∀ q ∈ l', p + 1 < q.id.toNat ∧ q.id.toNat ≤ p' + 1) ∧ (l'.map (·.id)).Nodup ∧
      1000 * p' + s.sum ≤ 1000 * p + s'.sum ∧ s'.state = .master ∧
      (s.Within now.toNat → s'.Within now.toNat) := by
  obtain ⟨s₁, c1, k1, c2, _⟩ := h.tick ht
  have hd := h.known (rx := rx) fun p hp => memory_recent hm (by omega) (hk p hp)
  obtain ⟨l₁, f1, e1, hs1⟩ := c1.fire h.wf hs hd
  have hl1 := f1.length
  have hd1 := k1.known (rx := rx) fun p hp => by
    refine memory_recent (l := l) (m := m ++ l₁) (by rw [e1, hm, List.append_assoc])
      (by simp; omega) ?_
    rw [List.map_append]
    exact List.mem_append_left _ (hk p hp)
  obtain ⟨a, p₁, a1, a2, a3, a4, a5, a6, a7, a8⟩ := c1.draws h.wf hd hw hr (by omega)
  obtain ⟨b, p₂, b1, b2, b3, b4, b5, b6, b7, b8⟩ := c2.draws k1.wf hd1 hw a2 (by omega)
  have a7 := a7 hs
  have b7 := b7 hs1
  obtain ⟨_, _, _, hs2⟩ := c2.fire k1.wf hs1 hd1
  refine ⟨a ++ b, p₂, by rw [b1, a1, List.append_assoc], b2, by omega, fun q hq => ?_, ?_,
    by omega, hs2, fun h => b8 hs2 (.inr (a8 hs1 (.inr h)))⟩
  · rcases List.mem_append.1 hq with hq | hq
    · have := a6 q hq; omega
    · have := b6 q hq; omega
  · match a, b, a5, b5 with
    | [], [], _, _ => simp
    | [x], [], _, _ => simp
    | [], [y], _, _ => simp
    | [x], [y], _, _ =>
      have h1 := a6 x (by simp)
      have h2 := b6 y (by simp)
      have : x.id ≠ y.id := fun e => by rw [e] at h1; omega
      simpa using this

end Node

namespace FakeNet

/-- `A`, which is master, hears only its own packets, and the others, which are slaves, transmit
only what they hear. -/
structure Calm {n} (net net' : FakeNet n) (A : Fin n) : Prop where
  sound : (net.node A).Sound
  master : (net.node A).state = .master
  recent : ∃ l m, (net.node A).sent = l ++ m ∧ m.length ≤ 4 ∧ ∀ p ∈ net.packet, p.id ∈ m.map (·.id)
  stay : ∀ i, i ≠ A → (net'.node i).state = .slave
  others : ∀ i, i ≠ A →
    ((∀ p ∈ net.packet, p.id ∈ memory (net.node i)) ∧ (net'.node i).sent = (net.node i).sent) ∨
    ∃ q, net.packet = some q ∧ q.id ∉ memory (net.node i) ∧
      (net'.node i).sent = (net.node i).sent ++ [FakeRadio.clearTail q]

/-- `A` draws `upFrom p` from now on, and has drawn the smaller numbers. -/
structure Counted {n} (net : FakeNet n) (A : Fin n) (p : Nat) : Prop where
  rand : (net.node A).rand = upFrom p
  sum : 1000 * p ≤ (net.node A).sum
  within : (net.node A).Within net.now.toNat
  memory : ∀ i, ∀ x ∈ memory (net.node i), x.toNat ≤ p + 1
  radio : ∀ i, ∀ q ∈ (net.radio i).sent, q.id.toNat ≤ p + 1
  packet : ∀ q ∈ net.packet, q.id.toNat ≤ p + 1

theorem Calm.fresh {n} {net net' : FakeNet n} {A p} (h : Calm net net' A) (c : Counted net A p)
    (hp : p + 8 < 65536) (r : Round net net' fun _ => net.air) (hw : net.now.toNat + 255000 < 2 ^ 32) :
    Fresh net net' ∧ OnlyMaster net' A ∧ ∃ p', Counted net' A p' := by
  obtain ⟨l, m, hs, hm, hk⟩ := h.recent
  have hkA : ∀ q ∈ net.air, q.id ∈ m.map (·.id) := fun p hp => by
    obtain ⟨q, hq, e, _⟩ := mem_air hp; rw [e]; exact hk q hq
  obtain ⟨l', p', h1, h2, h3, h4, h5, h6, h7, h8⟩ :=
    h.sound.master_draws h.master hs hm hkA hw (r.ticks A) c.rand hp
  have ownA : own net net' A = l' := own_known h1 fun q hq => memory_recent hs (by omega) (hk q hq)
  have ownO : ∀ i, i ≠ A → own net net' i = [] := by
    intro i hi
    rcases h.others i hi with ⟨g, e⟩ | ⟨q, hq, hu, e⟩
    · exact own_known (by rw [e]; simp) g
    · exact own_unknown e hq hu
  have ids : ∀ i, ∀ q ∈ own net net' i, p + 1 < q.id.toNat := by
    intro i q hq
    by_cases hi : i = A
    · subst hi; rw [ownA] at hq; exact (h4 q hq).1
    · rw [ownO i hi] at hq; cases hq
  refine ⟨⟨?_, ?_, ?_, ?_, ?_⟩, fun i => ?_, p', h2, ?_, by rw [r.now]; exact h8 c.within, ?_, ?_, ?_⟩
  · intro i q hq j hj
    have := ids i q hq
    have := c.memory j _ hj
    omega
  · intro i q hq r hr e
    have := ids i q hq
    have := c.packet r hr
    rw [e] at *; omega
  · intro i q hq j r hr e
    have := ids i q hq
    have := c.radio j r hr
    rw [e] at *; omega
  · intro i j hij q hq r hr
    by_cases hi : i = A
    · have hj : j ≠ A := fun e => hij (hi.trans e.symm)
      rw [ownO j hj] at hr; cases hr
    · rw [ownO i hi] at hq; cases hq
  · intro i
    by_cases hi : i = A
    · subst hi; rw [ownA]; exact h5
    · rw [ownO i hi]; simp
  · by_cases hi : i = A
    · rw [if_pos hi, hi]; exact h7
    · rw [if_neg hi]; exact h.stay i hi
  · have := c.sum; omega
  · intro i x hx
    by_cases hi : i = A
    · subst hi
      rcases memory_append h1 x hx with hx | hx
      · have := c.memory i x hx; omega
      · obtain ⟨q, hq, e⟩ := List.mem_map.1 hx
        have := h4 q hq
        rw [← e]; exact this.2
    · rcases h.others i hi with ⟨g, e⟩ | ⟨q, hq, hu, e⟩
      · rw [memory_same e] at hx
        have := c.memory i x hx; omega
      · rcases memory_append e x hx with hx | hx
        · have := c.memory i x hx; omega
        · have := c.packet q hq
          simp only [List.map_cons, List.map_nil, List.mem_singleton] at hx
          rw [hx]
          show q.id.toNat ≤ _
          omega
  all_goals
    have hW : ∀ i, ∀ q ∈ Waiting net net' i, q.id.toNat ≤ p' + 1 := by
      intro i q hq
      by_cases hi : i = A
      · subst hi
        rw [waiting_eq h1] at hq
        cases hl' : l'.getLast? with
        | none => rw [hl'] at hq; have := c.radio i q hq; omega
        | some q' =>
          rw [hl'] at hq; cases hq
          exact (h4 _ (List.mem_of_getLast? hl')).2
      · rcases h.others i hi with ⟨g, e⟩ | ⟨q', hq', hu, e⟩
        · rw [waiting_same e] at hq
          have := c.radio i q hq; omega
        · rw [waiting_eq e] at hq
          cases hq
          have := c.packet q' hq'
          show q'.id.toNat ≤ _
          omega
  · intro i q hq
    rcases taken_sent r i with e | e
    · rw [e] at hq; cases hq
    · rw [e] at hq; exact hW i q hq
  · intro q hq
    rcases r.taken with ⟨_, e, _⟩ | ⟨k, q', _, e1, e, _⟩
    · rw [e] at hq; cases hq
    · rw [e] at hq; cases hq; exact hW k q e1

/-- A slave that is not late. -/
theorem slave_calm {n} {net net' : FakeNet n} {i : Fin n} (sound : (net.node i).Sound)
    (h1 : (net.node i).state = .slave) (h2 : net.now.toNat ≤ (net.node i).timers.heartbeat.toNat)
    (r : Round net net' fun _ => net.air) (hw : net.now.toNat + 255000 < 2 ^ 32) :
    (net'.node i).state = .slave ∧
    (((∀ p ∈ net.packet, p.id ∈ memory (net.node i)) ∧ (net'.node i).sent = (net.node i).sent) ∨
    ∃ q, net.packet = some q ∧ q.id ∉ memory (net.node i) ∧
      (net'.node i).sent = (net.node i).sent ++ [FakeRadio.clearTail q]) := by
  by_cases hk : ∀ p ∈ net.packet, p.id ∈ memory (net.node i)
  · have := sound.slave_quiet (rx := net.air) h1 (fun p hp => by
      obtain ⟨q, hq, e, _⟩ := mem_air hp
      rw [e]; exact hk q hq) (BitVec.le_def.2 h2) (r.ticks i)
    rw [this]
    exact ⟨h1, .inl ⟨hk, rfl⟩⟩
  · cases hq : net.packet with
    | none => exact absurd (by rw [hq]; intro _ h; cases h) hk
    | some q =>
      have hu : (FakeRadio.clearTail q).id ∉ memory (net.node i) := fun hin => hk (by
        intro p hp; rw [hq] at hp; cases hp; exact hin)
      have rt := r.ticks i
      have ha : net.air = some (FakeRadio.clearTail q) := by unfold air; rw [hq]; rfl
      rw [ha] at rt
      obtain ⟨e1, e2, _⟩ := sound.slave_hears hw h1 hu (.inl (BitVec.le_def.2 h2)) rt
      exact ⟨e1, .inr ⟨q, rfl, hu, e2⟩⟩

theorem Stable.calm {n} {net net' : FakeNet n} {A t} (c : Stable net A t) (hn : n ≤ 99)
    (r : Round net net' fun _ => net.air) (ht : net.now.toNat = t + 1)
    (hw : net.now.toNat + 255000 < 2 ^ 32) : Calm net net' A := by
  obtain ⟨s₀, L, h, v, l, S, c⟩ := c
  have hS3 : S.length ≤ 3 := Nat.le_trans c.count (late_le _ _ _ _)
  have htL : t + 1 ≤ L + 5000 := by
    have h1 := c.onTime.beat
    rcases c.heart with hm | ⟨h2, _, _, h3, _⟩
    · unfold Missed at hm; omega
    · omega
  have hslotS : ∀ q ∈ net.packet, q.id ∈ S.map (·.id) := by
    intro q hq
    rcases c.slot with ⟨e, _⟩ | ⟨q', e, hq'⟩
    · rw [e] at hq; cases hq
    · rw [e] at hq; cases hq
      rcases hq' with ⟨hq', _⟩ | ⟨hq', _⟩ <;> exact hq'.1
  refine ⟨c.sound A, c.master, ⟨l, S, c.sent, by omega, hslotS⟩, fun i hi => ?_,
    fun i hi => ?_⟩
  all_goals
    obtain ⟨h1, h2⟩ := c.slaves i hi
    have := slave_calm (c.sound i) h1 (by omega) r hw
  · exact this.1
  · exact this.2

theorem Contest.calm {n} {net net' : FakeNet n} {T0 A x} (c : Contest net T0 A x)
    (ho : OnlyMaster net A) (r : Round net net' fun _ => net.air)
    (hT : net.now.toNat ≤ T0 + 1000)
    (hw : net.now.toNat + 255000 < 2 ^ 32) : Calm net net' A := by
  have slave : ∀ i, i ≠ A → (net.node i).state = .slave := fun i hi => by
    have := ho i; rwa [if_neg hi] at this
  obtain ⟨l, q, hs, hx⟩ := c.recent
  refine ⟨c.sound A, c.master, ⟨l, [q], hs, by simp, fun p hp => ?_⟩, fun i hi => ?_,
    fun i hi => ?_⟩
  · rcases c.slot p hp with e | ⟨i, hi, e, _⟩
    · simp [e, hx]
    · rw [slave i hi] at e; cases e
  all_goals
    have late : net.now.toNat ≤ (net.node i).timers.heartbeat.toNat := by
      rcases c.others i hi with ⟨_, h, _⟩ | ⟨h, _⟩
      · omega
      · rw [slave i hi] at h; cases h
    have := slave_calm (c.sound i) (slave i hi) late r hw
  · exact this.1
  · exact this.2

theorem Start.calm {n} {net net' : FakeNet n} {T0 A} (c : Start net T0 A)
    (ho : OnlyMaster net A) (r : Round net net' fun _ => net.air)
    (hT : ∀ i, i ≠ A → net.now.toNat ≤ (net.node i).timers.heartbeat.toNat)
    (hw : net.now.toNat + 255000 < 2 ^ 32) : Calm net net' A := by
  have slave : ∀ i, i ≠ A → (net.node i).state = .slave := fun i hi => by
    have := ho i; rwa [if_neg hi] at this
  obtain ⟨q, _, hq, ⟨l, hs⟩, _⟩ := c.packet
  refine ⟨c.sound A, c.master, ⟨l, [q], hs, by simp, fun p hp => ?_⟩, fun i hi => ?_,
    fun i hi => ?_⟩
  · rw [hq] at hp; cases hp; simp
  · exact (slave_calm (c.sound i) (slave i hi) (hT i hi) r hw).1
  · exact (slave_calm (c.sound i) (slave i hi) (hT i hi) r hw).2

end FakeNet
end Firefly
