import Verif.Lemmas.FakeFirm
import Verif.Spec.FakeReset

/-! # The network of the integration tests without a master, and resets -/

namespace Firefly
open Spec

namespace FakeNet

/-! ### Resets -/

/-- A device that was reset at `t`. -/
structure Reborn (t : Nat) (s : Node) : Prop where
  sound : s.Sound0
  slave : s.state = .slave
  sent : s.sent = []
  seen : s.effectChangeSeenAt = 0
  deadline : t + 5000 ≤ s.timers.heartbeat.toNat ∧ s.timers.heartbeat.toNat < t + 7000

theorem newNode_reborn {now rand junk junk' seeds node}
    (h : newNode now rand junk junk' seeds = .ok node) (hw : now.toNat + 255000 < 2 ^ 32) :
    Reborn now.toNat node := by
  unfold newNode at h
  obtain ⟨r, _, h⟩ := Node.bind_ok h
  cases h
  have hrun : Firefly.Run .host now [] (Node.init now rand junk junk') :=
    ⟨rand, junk, junk', .nil⟩
  have hwf : (Node.init now rand junk junk').WF := Node.WF.init
  have hb := Node.timeout_toNat hw (rand 0)
  refine ⟨⟨⟨hwf.1, hwf.2, hwf.3⟩, hrun.remembers⟩, ?_, ?_, ?_, ?_⟩
  · simp only [Node.setNumEffects, Node.setNumPalettes, Node.init, Node.beginSlave,
        Node.armSlaveTimeout_eq]
  · simp only [Node.setNumEffects, Node.setNumPalettes, Node.init, Node.beginSlave,
        Node.armSlaveTimeout_eq]
  · simp only [Node.setNumEffects, Node.setNumPalettes, Node.init, Node.beginSlave,
        Node.armSlaveTimeout_eq]
  · have e : (((Node.init now rand junk junk').setNumEffects r.getNumEffects).setNumPalettes
        (BitVec.ofNat 8 Firefly.palettes.length)).timers.heartbeat =
        now + BitVec.ofNat 32 (5000 + rand 0 % 2000) := by
      simp only [Node.setNumEffects, Node.setNumPalettes, Node.init, Node.beginSlave,
        Node.armSlaveTimeout_eq]
    rw [e, hb]; omega

/-- What resets do. -/
theorem _root_.Firefly.Spec.Resets.facts {n} {l : List (Fin n)} {net mid : FakeNet n}
    (h : Resets l net mid) (hw : net.now.toNat + 255000 < 2 ^ 32) :
    mid.now = net.now ∧ mid.radio = net.radio ∧ mid.packet = net.packet ∧ mid.loss = net.loss ∧
    ∀ i, (i ∉ l ∧ mid.node i = net.node i) ∨ (i ∈ l ∧ Reborn net.now.toNat (mid.node i)) := by
  induction h with
  | nil net => exact ⟨rfl, rfl, rfl, rfl, fun i => .inl ⟨by simp, rfl⟩⟩
  | @cons j l net net₁ net₂ rand junk junk' seeds h1 _ ih =>
    unfold reinitNode at h1
    obtain ⟨node, hnode, h1⟩ := Node.bind_ok h1
    have h1 := (Except.ok.inj h1).symm
    subst h1
    obtain ⟨i1, i2, i3, i4, i5⟩ := ih hw
    have b := newNode_reborn hnode hw
    refine ⟨i1, i2, i3, i4, fun i => ?_⟩
    rcases i5 i with ⟨hi, e⟩ | ⟨hi, e⟩
    · by_cases hij : i = j
      · refine .inr ⟨by rw [hij]; simp, ?_⟩
        rw [e]
        simp only [hij, if_true]
        exact b
      · refine .inl ⟨by simp [hij, hi], ?_⟩
        rw [e]
        simp only [hij, if_false]
    · exact .inr ⟨List.mem_cons_of_mem _ hi, e⟩

/-- The master stays when others are reset. -/
theorem Firm.reset {n} {net mid : FakeNet n} {A t ρ l} (c : Firm net A t ρ) (hn : n ≤ 42)
    (h : Resets l net mid) (ht : net.now.toNat = t) (hw : net.now.toNat + 255000 < 2 ^ 32)
    (hρ : ρ + (10 * n + 3) ≤ t) (hA : A ∉ l) : Firm mid A t t := by
  obtain ⟨s₀, L, hh, u, l', S, c⟩ := c
  obtain ⟨_, hr, hp, hl, hnode⟩ := h.facts hw
  rw [ht] at hnode
  obtain ⟨hS3, htL, hpot⟩ := c.bounds hn
  have eA : mid.node A = net.node A := by
    rcases hnode A with ⟨_, e⟩ | ⟨e, _⟩
    · exact e
    · exact absurd e hA
  let u' : Fin n → Nat := fun i => if i ∈ l then S.length else u i
  have hpend : mid.pend u' ≤ net.pend u + n * 3 := by
    unfold pend
    rw [hp, hr]
    have : tot (fun i => bit (net.radio i).sent + u' i) ≤
        tot (fun i => bit (net.radio i).sent + u i) + n * 3 := by
      apply tot_add
      intro i
      show _ + (if i ∈ l then S.length else u i) ≤ _
      split <;> omega
    omega
  have hs : s₀ ≤ t := c.since
  have hs' : ¬ s₀ ≤ ρ := by
    intro h'
    rw [if_pos h'] at hpot
    omega
  have hslave : ∀ i, i ≠ A → (mid.node i).state = .slave ∧
      L + 5000 ≤ (mid.node i).timers.heartbeat.toNat := by
    intro i hi
    rcases hnode i with ⟨_, e⟩ | ⟨_, e⟩
    · rw [e]; exact c.slaves i hi
    · exact ⟨e.slave, by have := e.deadline; have := c.heard; omega⟩
  refine ⟨s₀, L, hh, u', l', S, hl.trans c.loss, fun i => ?_, by rw [eA]; exact c.ran,
    by rw [eA]; exact c.master, hslave, c.heard, by rw [eA]; exact c.beat, c.past,
    by rw [eA]; exact c.onTime, by rw [eA]; exact c.sent, c.since, by rw [eA]; exact c.count,
    fun i hi => ?_, ?_, ?_, by rw [hp]; exact c.slot, by rw [hr]; exact c.wait,
    by rw [hp, hr]; exact c.idle, ?_⟩
  · rcases hnode i with ⟨_, e⟩ | ⟨_, e⟩
    · rw [e]; exact c.sound i
    · exact e.sound
  · show Passing _ _ (if i ∈ l then S.length else u i)
    rcases hnode i with ⟨h1, e⟩ | ⟨h1, e⟩
    · rw [if_neg h1, e]; exact c.relays i hi
    · rw [if_pos h1]
      have := Passing.start (mid.node i) (S.map (·.id))
      rwa [List.length_map] at this
  · show (if A ∈ l then S.length else u A) = 0
    rw [if_neg hA]; exact c.zero
  · have := c.pot
    rw [if_neg hs'] at this
    rw [if_pos hs]
    omega
  · rw [eA]
    rcases c.heart with hm | ⟨g1, g2, g3, g4, q, g5, g6, g7⟩
    · exact .inl hm
    · right
      have hh' : ¬ hh ≤ ρ := by
        intro h'
        rw [if_pos h'] at g4
        omega
      rw [if_neg hh'] at g4
      have := c.past
      refine ⟨g1, g2, g3, by rw [if_pos this]; omega, q, g5, fun i hi => ?_, by
        rw [hp, hr]; exact g7⟩
      rcases hnode i with ⟨_, e⟩ | ⟨_, e⟩
      · rw [e]; exact g6 i hi
      · exact .inr (by have := e.deadline; omega)

/-! ### No master -/

/-- After a `Tick` at `t` there is no master.  Packets numbered `S` may still be on their way; the
time of no device is up while they are.  All deadlines are at most `U`. -/
structure Lost {n} (net : FakeNet n) (t U : Nat) (S : List U16) (u : Fin n → Nat) : Prop where
  loss : net.loss = 0
  sound : ∀ i, (net.node i).Sound0
  slave : ∀ i, (net.node i).state = .slave
  relays : ∀ i, Passing (net.node i) S (u i)
  short : S.length ≤ 3
  slot : ∀ q ∈ net.packet, q.id ∈ S
  wait : ∀ i, ∀ q ∈ (net.radio i).sent, q.id ∈ S
  idle : net.packet = none → ∀ i, (net.radio i).sent = none
  late : net.packet ≠ none → ∀ i, net.pend u + t + 1 ≤ (net.node i).timers.heartbeat.toNat
  pos : ∀ i, 5001 ≤ (net.node i).timers.heartbeat.toNat
  bound : ∀ i, (net.node i).timers.heartbeat.toNat ≤ U
  more : net.packet ≠ none → net.pend u + t + 7000 ≤ U

theorem Lost.noMaster {n} {net : FakeNet n} {t U S u} (c : Lost net t U S u) :
    net.getNumMasters = 0 :=
  getNumMasters_zero.2 fun i e => by rw [c.slave i] at e; cases e

theorem Booted.lost {n} {net : FakeNet n} (hn : n ≤ 42) (b : net.Booted) (t : Nat) :
    Lost net t (n + 6999) [] (fun _ => 0) ∧ (∀ i, (net.node i).tickRun = true) ∧
      net.packet = none ∧ ∀ i, (net.node i).effectChangeSeenAt = 0 := by
  have c := b.idle (by omega)
  refine ⟨⟨c.loss, fun i => (c.silent i).sound.zero, fun i => (c.silent i).slave,
    fun i => Passing.start _ _, by simp, fun q hq => (by rw [c.packet] at hq; cases hq),
    fun i q hq => (by rw [(c.silent i).radio] at hq; cases hq), fun _ i => (c.silent i).radio,
    fun h => absurd c.packet h, fun i => ?_, fun i => ?_, fun h => absurd c.packet h⟩,
    fun i => (c.silent i).sound.ran, c.packet, fun i => (c.silent i).seen⟩
  · have := (c.silent i).deadline; omega
  · have := (c.silent i).deadline; omega

/-- The master is reset. -/
theorem Firm.lost {n} {net mid : FakeNet n} {A t ρ l} (c : Firm net A t ρ) (hn : n ≤ 42)
    (h : Resets l net mid) (ht : net.now.toNat = t) (hw : net.now.toNat + 255000 < 2 ^ 32)
    (hA : A ∈ l) (h1 : 5000 < t)
    (hnear : ∀ i, (net.node i).state = .slave → (net.node i).timers.heartbeat.toNat < t + 7000) :
    (∃ S u, Lost mid t (t + 7001 + 4 * n) S u) ∧
      ∀ i, t + 1 ≤ (mid.node i).timers.heartbeat.toNat := by
  obtain ⟨s₀, L, hh, u, l', S, c⟩ := c
  obtain ⟨_, hr, hp, hl, hnode⟩ := h.facts hw
  rw [ht] at hnode
  obtain ⟨hS3, htL, hpot⟩ := c.bounds hn
  let u' : Fin n → Nat := fun i => if i ∈ l then S.length else u i
  have hu : ∀ i, Passing (mid.node i) (S.map (·.id)) (u' i) := by
    intro i
    show Passing _ _ (if i ∈ l then S.length else u i)
    rcases hnode i with ⟨h1, e⟩ | ⟨h1, e⟩
    · rw [if_neg h1, e]; exact c.relays i fun e => h1 (e ▸ hA)
    · rw [if_pos h1]
      have := Passing.start (mid.node i) (S.map (·.id))
      rwa [List.length_map] at this
  have hpend : mid.pend u' ≤ n * 4 + 1 := by
    unfold pend
    have : tot (fun i => bit (mid.radio i).sent + u' i) ≤ n * 4 := by
      apply tot_bound
      intro i
      have h1 := bit_le (mid.radio i).sent
      have h2 := (hu i).le
      rw [List.length_map] at h2
      omega
    have := bit_le mid.packet
    omega
  have dead : ∀ i, t + 994 ≤ (mid.node i).timers.heartbeat.toNat + 7 * n ∧
      (mid.node i).timers.heartbeat.toNat < t + 7000 := by
    intro i
    rcases hnode i with ⟨h', e⟩ | ⟨_, e⟩
    · rw [e]
      have hs := c.slaves i fun e => h' (e ▸ hA)
      exact ⟨by omega, hnear i hs.1⟩
    · have := e.deadline; omega
  refine ⟨⟨S.map (·.id), u', hl.trans c.loss, fun i => ?_, fun i => ?_, hu, by
    rw [List.length_map]; exact hS3, by rw [hp]; exact c.slot, by rw [hr]; exact c.wait,
    by rw [hp, hr]; exact c.idle, fun _ i => ?_, fun i => ?_, fun i => ?_, fun _ => by omega⟩,
    fun i => ?_⟩
  · rcases hnode i with ⟨_, e⟩ | ⟨_, e⟩
    · rw [e]; exact c.sound i
    · exact e.sound
  · rcases hnode i with ⟨h', e⟩ | ⟨_, e⟩
    · rw [e]; exact (c.slaves i fun e => h' (e ▸ hA)).1
    · exact e.slave
  all_goals
    have := dead i
    omega

/-- A `Tick` without a master. -/
theorem Lost.tick {n} {net net' : FakeNet n} {t U S u} (c : Lost net t U S u) (hn : n ≤ 42)
    (r : Round net net' fun _ => net.air) (hnow : net.now.toNat ≤ 50000) (f : Fresh net net')
    (hslot : net.packet ≠ none → net.now.toNat = t + 1)
    (hran : ∀ i, (net.node i).tickRun = true ∨
      net.now.toNat ≤ (net.node i).timers.heartbeat.toNat)
    (hseen : ∀ i, (net.node i).effectChangeSeenAt.toNat ≤ net.now.toNat) :
    ((∃ u', Lost net' net.now.toNat U S u') ∧
      ((∀ i, net.now.toNat ≤ (net.node i).timers.heartbeat.toNat) ∨ net.now.toNat ≤ U) ∧
      (net.packet = none → net'.packet = none)) ∨
    (∃ A, Start net' net.now.toNat A ∧ (net.node A).timers.heartbeat.toNat < net.now.toNat) := by
  have hw : net.now.toNat + 255000 < 2 ^ 32 := by omega
  have sound' : ∀ i, (net'.node i).Sound := fun i => (c.sound i).after (r.ticks i)
  have idle' : net'.packet = none → ∀ i, (net'.radio i).sent = none := by
    intro hq
    rcases taken_cases r with ⟨_, h, _⟩ | ⟨k, p, h1, _⟩
    · exact h
    · rw [h1] at hq; cases hq
  by_cases hq : ∀ i, net.now.toNat ≤ (net.node i).timers.heartbeat.toNat
  · left
    have others := fun i => passing (u := u) (S := S) r (by have := c.short; omega) hw c.slot
      (c.relays i) (c.sound i) (c.slave i) (hq i)
    have hWS : ∀ i, ∀ q ∈ Waiting net net' i, q.id ∈ S := by
      intro i q hq
      rcases (others i).2.2.2 with ⟨_, _, e⟩ | ⟨q', p, e, _, pid, _, _, e3, _⟩
      · rw [e] at hq; exact c.wait i q hq
      · rw [e3] at hq; cases hq
        rw [pid]; exact c.slot q' e
    have pend1 : net'.pend (passed net u) ≤ tot (fun i => bit (net.radio i).sent + u i) := by
      rw [pend_taken r]
      exact tot_le fun i => (others i).2.2.1
    have pend2 : net'.pend (passed net u) ≤ n * 4 := by
      rw [pend_taken r]
      apply tot_bound
      intro i
      have h1 := bit_le (Waiting net net' i)
      have h2 := (others i).1.le
      have := c.short
      omega
    have hpk : net.packet = none → net'.packet = none := by
      intro hp
      rcases taken_cases r with ⟨h, _⟩ | ⟨k, p, _, h, _⟩
      · exact h
      · rcases (others k).2.2.2 with ⟨_, _, e⟩ | ⟨q', p, e, _⟩
        · rw [e, c.idle hp] at h; cases h
        · rw [hp] at e; cases e
    have pend3 : net.packet ≠ none → net'.pend (passed net u) + 1 ≤ net.pend u := by
      intro hp
      have e : bit net.packet = 1 := by
        cases hq : net.packet with
        | none => exact absurd hq hp
        | some => rfl
      unfold pend at *
      omega
    have dl : ∀ i, (net'.node i).timers.heartbeat = (net.node i).timers.heartbeat ∨
        (net.packet ≠ none ∧ net.now.toNat + 5000 ≤ (net'.node i).timers.heartbeat.toNat ∧
            (net'.node i).timers.heartbeat.toNat < net.now.toNat + 7000) := by
      intro i
      rcases (others i).2.2.2 with ⟨_, e, _⟩ | ⟨q', p, e, _, _, _, _, _, e3 | e3⟩
      · rw [e]; exact .inl rfl
      · exact .inl e3.1
      · exact .inr ⟨by rw [e]; simp, e3⟩
    refine ⟨⟨passed net u, r.loss.trans c.loss, fun i => (sound' i).zero, fun i => (others i).2.1,
      fun i => (others i).1, c.short, ?_, ?_, idle', fun hp i => ?_, fun i => ?_, fun i => ?_,
      fun hp => ?_⟩, .inl hq, hpk⟩
    · intro q hq
      rcases taken_cases r with ⟨h, _, _⟩ | ⟨k, p, h1, h2, _⟩
      · rw [h] at hq; cases hq
      · rw [h1] at hq; cases hq
        exact hWS k _ h2
    · intro i q hq
      rcases taken_sent r i with e | e
      · rw [e] at hq; cases hq
      · rw [e] at hq; exact hWS i q hq
    · have hp' : net.packet ≠ none := fun e => hp (hpk e)
      have := hslot hp'
      have := pend3 hp'
      have := c.late hp' i
      rcases dl i with e | e
      · rw [e]; omega
      · omega
    · have := c.pos i
      rcases dl i with e | e
      · rw [e]; omega
      · have := hslot e.1; omega
    · have := c.bound i
      rcases dl i with e | ⟨hp', e⟩
      · rw [e]; omega
      · have := c.more hp'
        have := hslot hp'
        have := pend3 hp'
        omega
    · have hp' : net.packet ≠ none := fun e => hp (hpk e)
      have := c.more hp'
      have := hslot hp'
      have := pend3 hp'
      omega
  · right
    have hp : net.packet = none := by
      by_cases hp : net.packet = none
      · exact hp
      · refine absurd (fun i => ?_) hq
        have := c.late hp i
        have := hslot hp
        omega
    have hair : net.air = none := by unfold air; rw [hp]; rfl
    rw [hair] at r
    have quiet : ∀ i, net.now.toNat ≤ (net.node i).timers.heartbeat.toNat →
        net'.node i = { net.node i with tickRun := true } := fun i hi =>
      (c.sound i).slave_quiet (c.slave i) (rx := none) (fun _ h => by cases h)
        (BitVec.le_def.2 hi) (r.ticks i)
    have over : ∀ i, (net.node i).timers.heartbeat.toNat < net.now.toNat →
        (net'.node i).state = .master ∧
        (∃ p : Packet, p.type = .heartbeat ∧ (net'.node i).sent = (net.node i).sent ++ [p] ∧
          own net net' i = [p]) ∧
        Armed net.now.toNat (net'.node i).timers := by
      intro i hi
      have hse := hseen i
      have hsub : (net.now - (net.node i).effectChangeSeenAt).toNat =
          net.now.toNat - (net.node i).effectChangeSeenAt.toNat :=
        BitVec.toNat_sub_of_le (BitVec.le_def.2 hse)
      have hdelay : Node.takeoverDelay net.now (net.node i).effectChangeSeenAt =
          60000 - (net.now - (net.node i).effectChangeSeenAt) := by
        unfold Node.takeoverDelay kChangeEffectInterval
        rw [if_neg]
        rw [BitVec.lt_def, show (60000 : U32).toNat = 60000 from rfl]
        omega
      have hval : (60000 - (net.now - (net.node i).effectChangeSeenAt) : U32).toNat =
          60000 - (net.now.toNat - (net.node i).effectChangeSeenAt.toNat) := by
        rw [BitVec.toNat_sub_of_le (by
          rw [BitVec.le_def, show (60000 : U32).toNat = 60000 from rfl]; omega), hsub]
        rfl
      have hs : (net.node i).Sound := by
        rcases hran i with h | h
        · exact (c.sound i).ran h
        · omega
      have hdl := c.pos i
      obtain ⟨e1, ⟨p, e2, e3⟩, e4, e5, e6⟩ := hs.slave_takes_over hw (c.slave i)
        ⟨fun e => by rw [e] at hdl; exact absurd hdl (by simp), BitVec.lt_def.2 hi⟩
        (by rw [hdelay]; intro e; rw [e] at hval; simp at hval; omega) (r.ticks i)
      refine ⟨e1, ⟨p, e2, e3, ?_⟩, ?_, ?_, ?_⟩
      · exact own_known e3 (by rw [hp]; intro _ h; cases h)
      · rw [e4, Node.add_toNat hw (by decide)]; rfl
      · rw [e5, Node.add_toNat hw (by decide)]; rfl
      · rw [e6, hdelay, Node.add_toNat hw (by rw [hval]; omega), hval]; omega
    have split : ∀ i, net.now.toNat ≤ (net.node i).timers.heartbeat.toNat ∨
        (net.node i).timers.heartbeat.toNat < net.now.toNat := fun i => by omega
    have hWq : ∀ i, net.now.toNat ≤ (net.node i).timers.heartbeat.toNat →
        Waiting net net' i = none := fun i hi => by
      rw [waiting_same (by rw [quiet i hi]), c.idle hp]
    rcases taken_cases r with ⟨_, _, h⟩ | ⟨A, p, h1, h2, h3, _⟩
    · refine absurd (fun i => ?_) hq
      rcases split i with hi | hi
      · exact hi
      · obtain ⟨_, ⟨p, _, e, _⟩, _⟩ := over i hi
        have := h i
        rw [waiting_eq e] at this
        cases this
    · have hA : (net.node A).timers.heartbeat.toNat < net.now.toNat := by
        rcases split A with hi | hi
        · rw [hWq A hi] at h2; cases h2
        · exact hi
      obtain ⟨a1, ⟨q, a2, a3, a4⟩, _⟩ := over A hA
      have hpq : p = q := by
        rw [waiting_eq a3] at h2
        cases h2; rfl
      subst hpq
      refine ⟨A, ⟨r.loss.trans c.loss, sound', fun i hi => ?_,
        fun i => ?_, a1, ⟨p, a2, h1, ⟨_, a3⟩, fun j hj hm => ?_⟩, h3⟩, hA⟩
      · rcases split i with h | h
        · rw [quiet i h] at hi
          have hi : (net.node i).state = .master := hi
          rw [c.slave] at hi; cases hi
        · exact (over i h).2.2
      · rcases split i with h | h
        · exact .inl (by rw [quiet i h]; exact c.slave i)
        · exact .inr (over i h).1
      · have hin : p ∈ own net net' A := by rw [a4]; simp
        rcases split j with h | h
        · rw [quiet j h] at hm
          exact f.memory A p hin j hm
        · obtain ⟨_, ⟨q, _, b3, b4⟩, _⟩ := over j h
          rcases memory_append b3 _ hm with hm | hm
          · exact f.memory A p hin j hm
          · exact f.others A j (Ne.symm hj) p hin q (by rw [b4]; simp) (by simpa using hm)

/-! ### The election -/

/-- Contest decided. -/
theorem Contest.firm {n} {net : FakeNet n} {T0 A x t} (c : Contest net T0 A x)
    (hs : ∀ i, i ≠ A → (net.node i).state = .slave) (hn : n ≤ 42) (h2 : 2 ≤ T0)
    (h1 : T0 + 1 ≤ t) (ht : t ≤ T0 + n + 1) (ρ : Nat) : Firm net A t ρ := by
  obtain ⟨l, q, hl, hq⟩ := c.recent
  obtain ⟨t1, t2, t3⟩ := c.timers A c.master
  have slot : ∀ p ∈ net.packet, p.id = x := fun p hp => by
    rcases c.slot p hp with h | ⟨i, hi, hm, _⟩
    · exact h
    · rw [hs i hi] at hm; cases hm
  let u : Fin n → Nat := fun i => if i = A then 0 else 1
  have hpend : net.pend u ≤ n * 2 + 1 := by
    unfold pend
    have : tot (fun i => bit (net.radio i).sent + u i) ≤ n * 2 := by
      apply tot_bound
      intro i
      have h1 := bit_le (net.radio i).sent
      have h2 : u i ≤ 1 := by
        show (if i = A then 0 else 1) ≤ 1
        split <;> omega
      omega
    have := bit_le net.packet
    omega
  refine ⟨T0, T0 + 1, T0, u, l, [q], c.loss, fun i => (c.sound i).zero, (c.sound A).ran, c.master,
    fun i hi => ?_, h1, t1, by omega,
    ⟨by omega, by omega, by omega, by omega⟩, hl, by omega, ?_, fun i hi => ?_, if_pos rfl, ?_,
    fun p hp => ?_, fun i p hp => ?_, c.idle, .inl (.inl (by omega))⟩
  · rcases c.others i hi with ⟨e1, e2, _⟩ | ⟨e1, _⟩
    · exact ⟨e1, by omega⟩
    · rw [hs i hi] at e1; cases e1
  · unfold late
    rw [if_pos (Nat.le_refl _)]
    simp only [List.length_singleton]
    omega
  · show Passing _ _ (if i = A then 0 else 1)
    rw [if_neg hi]
    exact Passing.start _ _
  · simp only [List.length_singleton]
    omega
  · rw [slot p hp]; simp [hq]
  · by_cases hi : i = A
    · subst hi; rw [c.empty] at hp; cases hp
    · rcases c.others i hi with ⟨_, _, e⟩ | ⟨e1, _⟩
      · rw [e p hp]; simp [hq]
      · rw [hs i hi] at e1; cases e1

end FakeNet
end Firefly
