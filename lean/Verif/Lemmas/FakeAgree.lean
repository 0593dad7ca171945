import Verif.Lemmas.FakeTell
import Verif.Lemmas.FakeCourse

/-! # The devices of the test network follow the master -/

namespace Firefly
open Spec

namespace Node

/-- When a device next repeats its instruction. -/
theorem TickCase.bcast {plat now rx} {s s' : Node} (h : TickCase plat now rx s s') :
    s'.timers.broadcastEffect = s.timers.broadcastEffect ∨
      s'.timers.broadcastEffect = now + 2000 := by
  cases h with
  | takeOver | «repeat» => exact .inr rfl
  | change => left; simp [afterChange]
  | _ =>
    left
    first
      | rfl
      | (rw [armSlaveTimeout_eq]; done)
      | (unfold afterBeginSlave; rw [armSlaveTimeout_eq]; done)

theorem Able.tick_bcast {now rx} {s s' : Node} (h : s.Able)
    (hrx : ∀ p, rx = some p → Regular p) (ht : s.tick .host now rx now rx = .ok s') :
    s'.timers.broadcastEffect = s.timers.broadcastEffect ∨
      s'.timers.broadcastEffect = now + 2000 := by
  have one : ∀ {s s' : Node}, s.Able → s.radioTick .host now rx = .ok s' →
      s'.timers.broadcastEffect = s.timers.broadcastEffect ∨
      s'.timers.broadcastEffect = now + 2000 := by
    intro s s' h e
    rcases Node.radioTick_result (plat := .host) (now := now) (rx := rx) h.wf with
      ⟨s₁, h2, c⟩ | ⟨_, h2, _⟩ | ⟨_, h2, _⟩
    · rw [e] at h2
      have := Except.ok.inj h2
      rw [this]; exact c.bcast
    · rw [e] at h2; cases h2
    · rw [e] at h2; cases h2
  obtain ⟨s₁, h1, k1⟩ := h.radioTick (now := now) hrx
  have b1 := one h h1
  unfold Node.tick at ht
  simp only [h1, bind, Except.bind, pure, Except.pure] at ht
  cases hr : s₁.tickRun with
  | false =>
    simp only [hr, Bool.false_eq_true, if_false] at ht
    rw [← Except.ok.inj ht]; exact b1
  | true =>
    obtain ⟨s₂, h2, k2⟩ := k1.radioTick (now := now) hrx
    simp only [hr, if_true, h2] at ht
    rw [← Except.ok.inj ht]
    rcases one k1 h2 with e | e
    · rcases b1 with e' | e'
      · exact .inl (e.trans e')
      · exact .inr (e.trans e')
    · exact .inr e

end Node

namespace FakeNet

/-- No device other than `A` knows the packet. -/
def Unheard {n} (net : FakeNet n) (A : Fin n) (q : Packet) : Prop :=
  ∀ i, i ≠ A → q.id ∉ memory (net.node i)

/-- What a `Tick` does to a network with one master: it transmits `m`. -/
structure Beat {n} (net net' : FakeNet n) (A : Fin n) (t : Nat) (m : List Packet) : Prop where
  fires : Fires t (net.node A).timers.heartbeat.toNat (net.node A).timers.changeEffect.toNat
    (net.node A).timers.broadcastEffect.toNat (net'.node A).timers.heartbeat.toNat
    (net'.node A).timers.changeEffect.toNat (net'.node A).timers.broadcastEffect.toNat m
  onTime : OnTime t (net.node A).timers.heartbeat.toNat (net.node A).timers.changeEffect.toNat
    (net.node A).timers.broadcastEffect.toNat
  empty : net.packet = none → ∀ i, (net.radio i).sent = none
  sent : (net'.node A).sent = (net.node A).sent ++ m
  others : ∀ i, i ≠ A →
    (((net.packet = none ∨ ∃ q, net.packet = some q ∧ ∀ i, i ≠ A → q.id ∈ memory (net.node i)) ∧
        net'.node i = net.node i) ∨
     ∃ q, net.packet = some q ∧ Unheard net A q ∧
        (net'.node i).sent = (net.node i).sent ++ [FakeRadio.clearTail q] ∧
        ((q.type = .setEffect ∧ (net'.node i).setEffectPacket = FakeRadio.clearTail q ∧
            (net'.node i).effectIndex = (FakeRadio.clearTail q).data[0]) ∨
         (q.type ≠ .setEffect ∧ (net'.node i).setEffectPacket = (net.node i).setEffectPacket ∧
            (net'.node i).effectIndex = (net.node i).effectIndex)))
  old : ∀ i, i ≠ A → ∀ q ∈ Waiting net net' i, ∀ j, j ≠ A → q.id ∈ memory (net'.node j)
  fresh : ∀ q ∈ Waiting net net' A, Unheard net' A q
  says : ∀ q ∈ m.getLast?, q.type = .heartbeat ∨ SameOrder q (net'.node A).setEffectPacket
  keeps : SameOrder (net'.node A).setEffectPacket (net.node A).setEffectPacket ∧
      (net'.node A).effectIndex = (net.node A).effectIndex ∧
      (net'.node A).timers.changeEffect = (net.node A).timers.changeEffect ∨
    (net'.node A).setEffectPacket.data[0] = (net'.node A).effectIndex ∧
      (net'.node A).timers.changeEffect ≠ (net.node A).timers.changeEffect
  repeats : (net'.node A).timers.broadcastEffect ≠ (net.node A).timers.broadcastEffect ∨
      (net'.node A).timers.changeEffect ≠ (net.node A).timers.changeEffect →
    ∃ q, m.getLast? = some q ∧ SameOrder q (net'.node A).setEffectPacket

theorem Stable.beat {n} {net net' : FakeNet n} {A t} (c : Stable net A t) (hn : n ≤ 99)
    (r : Round net net' fun _ => net.air) (ht : net.now.toNat = t + 1)
    (hw : net.now.toNat + 255000 < 2 ^ 32) (f : Fresh net net') (ab : net.Able) :
    ∃ m, Beat net net' A t m := by
  obtain ⟨s₀, L, h, v, l, S, c⟩ := c
  have hS3 : S.length ≤ 3 := Nat.le_trans c.count (late_le _ _ _ _)
  have htL : t + 1 ≤ L + 5000 := by
    have h1 := c.onTime.beat
    rcases c.heart with hm | ⟨h2, _, _, h3, _⟩
    · unfold Missed at hm; omega
    · omega
  have hslotS : ∀ q ∈ net.packet, q.id ∈ S.map (·.id) := by
    intro q hq
    rcases c.slot with ⟨e, _⟩ | ⟨q', e, hq'⟩
    · rw [e] at hq; cases hq
    · rw [e] at hq; cases hq
      rcases hq' with ⟨hq', _⟩ | ⟨hq', _⟩ <;> exact hq'.1
  have hkA : ∀ p ∈ net.air, p.id ∈ S.map (·.id) := fun p hp => by
    obtain ⟨q, hq, e, _⟩ := mem_air hp; rw [e]; exact hslotS q hq
  obtain ⟨T₁, l₁, l₂, f1, f2, hsent, _⟩ := (c.sound A).master_tick c.master c.sent (by omega)
    hkA (r.ticks A)
  obtain ⟨m', hm', hsays, hkeeps, hrep⟩ := (c.sound A).master_tells c.master c.sent (by omega)
    hkA hw (r.ticks A)
  have onT := c.onTime
  rw [← c.beat] at onT
  have fires := fires_of ht hw onT f1 f2
  have hmm : m' = l₁ ++ l₂ := List.append_cancel_left (hm'.symm.trans hsent)
  rw [hmm] at hsays hrep
  have others : ∀ i, i ≠ A →
    (((net.packet = none ∨ ∃ q, net.packet = some q ∧ ∀ i, i ≠ A → q.id ∈ memory (net.node i)) ∧
        net'.node i = net.node i) ∨
     ∃ q, net.packet = some q ∧ Unheard net A q ∧
        (net'.node i).sent = (net.node i).sent ++ [FakeRadio.clearTail q] ∧
        ((q.type = .setEffect ∧ (net'.node i).setEffectPacket = FakeRadio.clearTail q ∧
            (net'.node i).effectIndex = (FakeRadio.clearTail q).data[0]) ∨
         (q.type ≠ .setEffect ∧ (net'.node i).setEffectPacket = (net.node i).setEffectPacket ∧
            (net'.node i).effectIndex = (net.node i).effectIndex))) := by
    intro i hi
    obtain ⟨h1, h2⟩ := c.slaves i hi
    have quiet : (∀ q ∈ net.packet, q.id ∈ memory (net.node i)) → net'.node i = net.node i := by
      intro hk
      refine (c.sound i).slave_quiet h1 ?_ (by rw [BitVec.le_def]; omega) (r.ticks i)
      intro p hp
      obtain ⟨q, hq, e, _⟩ := mem_air hp
      rw [e]; exact hk q hq
    rcases c.slot with ⟨e, _⟩ | ⟨q, e, ⟨hq, _⟩ | ⟨hq, _⟩⟩
    · exact .inl ⟨.inl e, quiet (by rw [e]; intro _ h; cases h)⟩
    · exact .inl ⟨.inr ⟨q, e, hq.2⟩, quiet (by rw [e]; intro _ h; cases h; exact hq.2 i hi)⟩
    · have rt := r.ticks i
      have ha : net.air = some (FakeRadio.clearTail q) := by unfold air; rw [e]; rfl
      rw [ha] at rt
      have hT : net.now ≤ (net.node i).timers.heartbeat := by rw [BitVec.le_def]; omega
      have hk : (FakeRadio.clearTail q).id ∉ memory (net.node i) := hq.2 i hi
      obtain ⟨_, e2, _⟩ := (c.sound i).slave_hears hw h1 hk (.inl hT) rt
      refine .inr ⟨q, e, hq.2, e2, ?_⟩
      exact (c.sound i).slave_told hw h1 hk hT (regular_tidy (ab.packet q e)) rt
  have hmemS : ∀ x, x ∈ S.map (·.id) → x ∈ memory (net.node A) := fun x hx =>
    memory_recent c.sent (by omega) hx
  have hownA : own net net' A = l₁ ++ l₂ := own_known hsent fun p hp => hmemS _ (hslotS p hp)
  have mem' : ∀ i, i ≠ A → ∀ x, (∀ q ∈ net.packet, x ≠ q.id) → x ∉ memory (net.node i) →
      x ∉ memory (net'.node i) := by
    intro i hi x hx hn hm
    rcases others i hi with ⟨_, e⟩ | ⟨q, e, _, e2, _⟩
    · rw [e] at hm; exact hn hm
    · rcases memory_append e2 x hm with hm | hm
      · exact hn hm
      · simp at hm; exact hx q e hm
  refine ⟨l₁ ++ l₂, fires, onT, ?_, hsent, others, ?_, ?_, hsays, hkeeps, hrep⟩
  · intro e
    rcases c.slot with ⟨_, e'⟩ | ⟨q, e', _⟩
    · exact e'
    · rw [e] at e'; cases e'
  · intro i hi q hq j hj
    rcases others i hi with ⟨hp, e⟩ | ⟨q', e, hn, e2, _⟩
    · rw [waiting_same (by rw [e])] at hq
      have k2 := (c.wait i hi q hq).2
      rcases others j hj with ⟨_, e⟩ | ⟨q', e, hn, _⟩
      · rw [e]; exact k2 j hj
      · rcases hp with hp | ⟨q'', hp, ho⟩
        · rw [hp] at e; cases e
        · rw [hp] at e; cases e
          exact absurd (ho j hj) (hn j hj)
    · rw [waiting_eq e2] at hq
      have hq : q = FakeRadio.clearTail q' := by cases hq; rfl
      subst hq
      rcases others j hj with ⟨hp, _⟩ | ⟨q'', e', _, e2', _⟩
      · rcases hp with hp | ⟨q'', hp, ho⟩
        · rw [hp] at e; cases e
        · rw [hp] at e; cases e
          exact absurd (ho j hj) (hn j hj)
      · rw [e] at e'; cases e'
        exact memory_recent e2' (by simp) (by simp)
  · intro q hq i hi
    rw [waiting_eq hsent] at hq
    cases hl : (l₁ ++ l₂).getLast? with
    | none =>
      rw [hl] at hq
      obtain ⟨⟨_, k2⟩, k3⟩ := c.own q hq
      exact mem' i hi _ (fun r hr => (k3 r hr).symm) (k2 i hi)
    | some q' =>
      rw [hl] at hq
      cases hq
      have hin := List.mem_of_getLast? hl
      refine mem' i hi _ (fun r hr => ?_) ?_
      · exact f.packet A q (hownA ▸ hin) r hr
      · exact f.memory A q (hownA ▸ hin) i

/-- What is on its way from the master, if an instruction, is its current one. -/
def Says {n} (net : FakeNet n) (A : Fin n) : Prop :=
  ∀ q, (net.radio A).sent = some q ∨ (net.packet = some q ∧ Unheard net A q) →
    q.type ≠ .setEffect ∨ SameOrder q (net.node A).setEffectPacket

/-- All devices follow the master's instruction. -/
def Synced {n} (net : FakeNet n) (A : Fin n) : Prop :=
  ∀ i, i ≠ A → SameOrder (net.node i).setEffectPacket (net.node A).setEffectPacket ∧
    (net.node i).effectIndex = (net.node A).setEffectPacket.data[0]

/-- How far the instruction, which the master follows since `x`, has got. -/
inductive Reach {n} (net : FakeNet n) (A : Fin n) (t x v : Nat) : Prop
  | synced (h : Says net A) (s : Synced net A)
  | waiting (h : (net.node A).timers.broadcastEffect.toNat ≤ x + 4 * n + 2001)
      (s : Says net A ∨ net.load A v + t ≤ x + 2 * n)
  | firm (q e) (h : Says net A) (hq : (net.radio A).sent = some q) (ty : q.type = .setEffect)
      (hl : net.load A v + t ≤ e) (h1 : e ≤ (net.node A).timers.heartbeat.toNat)
      (h2 : e ≤ (net.node A).timers.broadcastEffect.toNat) (h3 : e ≤ x + 6 * n + 2003)
  | slot (q) (h : Says net A) (hq : net.packet = some q) (hu : Unheard net A q)
      (ty : q.type = .setEffect) (ht : t ≤ x + 6 * n + 2003)

/-- After a `Tick` at `t`; the master follows its instruction since `x` or before. -/
structure Tell {n} (net : FakeNet n) (A : Fin n) (t x v : Nat) : Prop where
  past : x ≤ t
  bcast : (net.node A).timers.broadcastEffect.toNat ≤ t + 2000
  weight : ∀ q ∈ net.packet, 1 ≤ v ∧ (Unheard net A q → n ≤ v)
  busy : ∀ y, (net.node A).timers.heartbeat.toNat ≤ y + 1000 →
    (net.node A).timers.broadcastEffect.toNat ≤ y + 2000 → x ≤ y → net.packet ≠ none →
    net.load A v + t ≤ y + 2 * n
  reach : Reach net A t x v

theorem Beat.wait {n} {net net' : FakeNet n} {A t m} (b : Beat net net' A t m) :
    Waiting net net' A = m.getLast?.or (net.radio A).sent := waiting_eq b.sent

/-- Where what is on its way comes from. -/
theorem Beat.source {n} {net net' : FakeNet n} {A t m} (b : Beat net net' A t m)
    (r : Round net net' fun _ => net.air) {q : Packet}
    (h : (net'.radio A).sent = some q ∨ (net'.packet = some q ∧ Unheard net' A q)) :
    Waiting net net' A = some q := by
  rcases h with h | ⟨h, hu⟩
  · rcases taken_sent r A with e | e
    · rw [e] at h; cases h
    · rw [← e]; exact h
  · rcases r.taken with ⟨_, e, _⟩ | ⟨k, p, _, h2, h3, _⟩
    · rw [e] at h; cases h
    · rw [h3] at h; cases h
      by_cases hk : k = A
      · rw [← hk]; exact h2
      · exact absurd (b.old k hk q h2 k hk) (hu k hk)

theorem Beat.says_sent {n} {net net' : FakeNet n} {A t m} (b : Beat net net' A t m)
    (r : Round net net' fun _ => net.air) (hm : m ≠ []) : Says net' A := by
  intro q hq
  have hW := b.source r hq
  rw [b.wait] at hW
  cases hl : m.getLast? with
  | none => exact absurd (by simpa using hl) hm
  | some q' =>
    rw [hl] at hW
    cases hW
    rcases b.says q hl with e | e
    · exact .inl (by rw [e]; simp)
    · exact .inr e

theorem Beat.says_kept {n} {net net' : FakeNet n} {A t m} (b : Beat net net' A t m)
    (r : Round net net' fun _ => net.air) (hs : Says net A)
    (hk : SameOrder (net'.node A).setEffectPacket (net.node A).setEffectPacket) : Says net' A := by
  by_cases hm : m = []
  · intro q hq
    have hW := b.source r hq
    rw [b.wait, hm] at hW
    rcases hs q (.inl hW) with e | e
    · exact .inl e
    · exact .inr (e.trans hk.symm)
  · exact b.says_sent r hm

/-- The load after a `Tick`. -/
theorem Beat.load {n} {net net' : FakeNet n} {A t m v} (b : Beat net net' A t m)
    (r : Round net net' fun _ => net.air)
    (hw : ∀ q ∈ net.packet, 1 ≤ v ∧ (Unheard net A q → n ≤ v)) :
    ∃ v', net'.load A v' + 1 ≤ 2 * n ∧
      (∀ q ∈ net'.packet, 1 ≤ v' ∧ (Unheard net' A q → n ≤ v')) ∧
      (m = [] → net.packet ≠ none → net'.load A v' + 1 ≤ net.load A v) := by
  obtain ⟨v', hload, htaken⟩ := load_taken r A
  have hn : 0 < n := A.pos
  have hlt := waits_lt (Waiting net net') A
  refine ⟨v', by rw [hload]; split <;> omega, ?_, ?_⟩
  · intro q hq
    rcases htaken with ⟨e, _⟩ | ⟨k, p, e1, e2, e3, _⟩
    · rw [e] at hq; cases hq
    · rw [e1] at hq; cases hq
      by_cases hk : k = A
      · rw [if_pos hk] at e3; omega
      · rw [if_neg hk] at e3
        exact ⟨by omega, fun hu => absurd (b.old k hk q e2 k hk) (hu k hk)⟩
  · intro hm hp
    rw [hload, b.wait, hm]
    show _ + (if (net.radio A).sent.isSome = true then n else 0) + 1 ≤ _
    unfold FakeNet.load
    cases hq : net.packet with
    | none => exact absurd hq hp
    | some q =>
      obtain ⟨w1, w2⟩ := hw q hq
      by_cases hu : Unheard net A q
      · have := w2 hu
        omega
      · have : waits (Waiting net net') A = waits (fun i => (net.radio i).sent) A := by
          refine waits_congr fun i hi => ?_
          rcases b.others i hi with ⟨_, e'⟩ | ⟨q', e', hn, _⟩
          · rw [waiting_same (by rw [e'])]
          · rw [hq] at e'; cases e'
            exact absurd hn hu
        rw [this]; omega

/-- The devices stay with the master. -/
theorem Beat.synced {n} {net net' : FakeNet n} {A t m} (b : Beat net net' A t m)
    (ab : net.Able) (hs : Says net A)
    (hk : SameOrder (net'.node A).setEffectPacket (net.node A).setEffectPacket)
    (h : Synced net A ∨ ∃ q, net.packet = some q ∧ Unheard net A q ∧ q.type = .setEffect) :
    Synced net' A := by
  have hlen : (net.node A).setEffectPacket.len = 3 :=
    (Node.regular_effect (ab.node A).regular (ab.node A).instr).1
  have hk0 : (net'.node A).setEffectPacket.data[0] = (net.node A).setEffectPacket.data[0] :=
    hk.used 0 (by decide) (by rw [hk.len, hlen]; decide)
  have told : ∀ i, i ≠ A → ∀ q, net.packet = some q → Unheard net A q → q.type = .setEffect →
      (net'.node i).setEffectPacket = FakeRadio.clearTail q →
      (net'.node i).effectIndex = (FakeRadio.clearTail q).data[0] →
      SameOrder (net'.node i).setEffectPacket (net'.node A).setEffectPacket ∧
        (net'.node i).effectIndex = (net'.node A).setEffectPacket.data[0] := by
    intro i hi q hq hu ty e1 e2
    rcases hs q (.inr ⟨hq, hu⟩) with e | e
    · exact absurd ty e
    · have so := ((SameOrder.tidy q).trans e).trans hk.symm
      rw [e1, e2]
      exact ⟨so, so.used 0 (by decide) (by rw [so.len, hk.len, hlen]; decide)⟩
  intro i hi
  rcases b.others i hi with ⟨hp, e⟩ | ⟨q, hq, hu, _, ⟨ty, e1, e2⟩ | ⟨ty, e1, e2⟩⟩
  · rcases h with h | ⟨q, hq, hu, _⟩
    · obtain ⟨h1, h2⟩ := h i hi
      rw [e, hk0]
      exact ⟨h1.trans hk.symm, h2⟩
    · rcases hp with hp | ⟨q', hp, ho⟩
      · rw [hq] at hp; cases hp
      · rw [hq] at hp; cases hp
        exact absurd (ho i hi) (hu i hi)
  · exact told i hi q hq hu ty e1 e2
  · rcases h with h | ⟨q', hq', _, ty'⟩
    · obtain ⟨h1, h2⟩ := h i hi
      rw [e1, e2, hk0]
      exact ⟨h1.trans hk.symm, h2⟩
    · rw [hq] at hq'; cases hq'
      exact absurd ty' ty

/-- Any network with one master, after a `Tick`. -/
theorem Beat.start {n} {net net' : FakeNet n} {A t m} (b : Beat net net' A t m)
    (r : Round net net' fun _ => net.air)
    (hb : (net.node A).timers.broadcastEffect.toNat ≤ t + 2001) :
    ∃ v, Tell net' A (t + 1) (t + 1) v := by
  obtain ⟨v', h1, h2, _⟩ := b.load r (v := n) fun q _ => ⟨A.pos, fun _ => Nat.le_refl _⟩
  have hb' : (net'.node A).timers.broadcastEffect.toNat ≤ t + 2001 := by
    have f := b.fires
    generalize (net'.node A).timers.broadcastEffect.toNat = b' at *
    generalize (net'.node A).timers.heartbeat.toNat = h' at *
    generalize (net'.node A).timers.changeEffect.toNat = c' at *
    cases f <;> omega
  exact ⟨v', Nat.le_refl _, hb', h2, fun y _ _ hy _ => by omega,
    .waiting (by omega) (.inr (by omega))⟩

theorem Beat.tell {n} {net net' : FakeNet n} {A t m x v} (b : Beat net net' A t m)
    (r : Round net net' fun _ => net.air) (hn : n ≤ 99) (ab : net.Able) (c : Tell net A t x v) :
    ∃ x' v', Tell net' A (t + 1) x' v' ∧
      (x' = x ∧ SameOrder (net'.node A).setEffectPacket (net.node A).setEffectPacket ∧
          (net'.node A).effectIndex = (net.node A).effectIndex ∨
       x' = t + 1 ∧ t = (net.node A).timers.changeEffect.toNat ∧
          (net'.node A).timers.changeEffect.toNat = t + 60001) := by
  obtain ⟨v', hl1, hw', hl2⟩ := b.load r c.weight
  have hn0 : 0 < n := A.pos
  have hb' : (net'.node A).timers.broadcastEffect.toNat ≤ t + 2001 := by
    have f := b.fires
    have := c.bcast
    generalize (net'.node A).timers.broadcastEffect.toNat = b' at *
    generalize (net'.node A).timers.heartbeat.toNat = h' at *
    generalize (net'.node A).timers.changeEffect.toNat = c' at *
    cases f <;> omega
  rcases b.keeps with ⟨hk, hki, hkc⟩ | ⟨_, hkc⟩
  · -- the instruction stays
    have hkc : (net'.node A).timers.changeEffect.toNat =
      (net.node A).timers.changeEffect.toNat := by rw [hkc]
    -- what fires
    have cases3 :
        (m = [] ∧ t < (net.node A).timers.heartbeat.toNat ∧
          t < (net.node A).timers.broadcastEffect.toNat ∧
          (net'.node A).timers.heartbeat.toNat = (net.node A).timers.heartbeat.toNat ∧
          (net'.node A).timers.broadcastEffect.toNat =
            (net.node A).timers.broadcastEffect.toNat) ∨
        ((∃ q, m = [q]) ∧ (net.node A).timers.heartbeat.toNat = t ∧
          t < (net.node A).timers.broadcastEffect.toNat ∧
          (net'.node A).timers.heartbeat.toNat = t + 1001 ∧
          (net'.node A).timers.broadcastEffect.toNat =
            (net.node A).timers.broadcastEffect.toNat) ∨
        (m ≠ [] ∧ (net.node A).timers.broadcastEffect.toNat ≤ t ∧
          (net'.node A).timers.broadcastEffect.toNat = t + 2001 ∧
          ((net'.node A).timers.heartbeat.toNat = t + 1001 ∨
            (net'.node A).timers.heartbeat.toNat = (net.node A).timers.heartbeat.toNat)) := by
      have f := b.fires
      generalize (net'.node A).timers.broadcastEffect.toNat = b' at *
      generalize (net'.node A).timers.heartbeat.toNat = h' at *
      generalize (net'.node A).timers.changeEffect.toNat = c' at *
      cases f with
      | none => exact .inl ⟨rfl, by omega, by omega, rfl, rfl⟩
      | beat q => exact .inr (.inl ⟨⟨q, rfl⟩, by omega, by omega, rfl, rfl⟩)
      | «repeat» q => exact .inr (.inr ⟨by simp, by omega, rfl, .inr rfl⟩)
      | beatRepeat q => exact .inr (.inr ⟨by simp, by omega, rfl, .inl rfl⟩)
      | change | beatChange | changeRepeat => omega
    have busy' : ∀ y, (net'.node A).timers.heartbeat.toNat ≤ y + 1000 →
        (net'.node A).timers.broadcastEffect.toNat ≤ y + 2000 → x ≤ y → net'.packet ≠ none →
        net'.load A v' + (t + 1) ≤ y + 2 * n := by
      intro y h1 h2 h3 hp
      rcases cases3 with ⟨g1, _, _, g4, g5⟩ | ⟨_, _, _, g4, _⟩ | ⟨_, _, g4, _⟩
      · have hp0 : net.packet ≠ none := by
          intro e
          apply hp
          have hW0 : ∀ i, Waiting net net' i = none := by
            intro i
            by_cases hi : i = A
            · subst hi; rw [b.wait, g1, b.empty e]; rfl
            · rcases b.others i hi with ⟨_, e'⟩ | ⟨q, e', _⟩
              · rw [waiting_same (by rw [e']), b.empty e]
              · rw [e] at e'; cases e'
          rcases r.taken with ⟨_, e', _⟩ | ⟨k, p, _, e', _⟩
          · exact e'
          · rw [hW0] at e'; cases e'
        have := hl2 g1 hp0
        have := c.busy y (by omega) (by omega) h3 hp0
        omega
      · omega
      · omega
    have mk : Reach net' A (t + 1) x v' → ∃ x' v', Tell net' A (t + 1) x' v' ∧
      (x' = x ∧ SameOrder (net'.node A).setEffectPacket (net.node A).setEffectPacket ∧
          (net'.node A).effectIndex = (net.node A).effectIndex ∨
       x' = t + 1 ∧ t = (net.node A).timers.changeEffect.toNat ∧
          (net'.node A).timers.changeEffect.toNat = t + 60001) := fun h =>
      ⟨x, v', ⟨by have := c.past; omega, by omega, hw', busy', h⟩, .inl ⟨rfl, hk, hki⟩⟩
    apply mk
    cases c.reach with
    | synced hs sy => exact .synced (b.says_kept r hs hk) (b.synced ab hs hk (.inl sy))
    | slot q hs hq hu ty ht =>
      exact .synced (b.says_kept r hs hk) (b.synced ab hs hk (.inr ⟨q, hq, hu, ty⟩))
    | firm q e hs hq ty hl h1 h2 h3 =>
      have hpos : n ≤ net.load A v := by
        unfold FakeNet.load
        rw [hq]; simp only [Option.isSome_some, if_true]; omega
      have hm : m = [] := by
        rcases cases3 with ⟨g1, _⟩ | ⟨_, g, _⟩ | ⟨_, g, _⟩
        · exact g1
        · omega
        · omega
      have hp : net.packet ≠ none := by
        intro e'; rw [b.empty e'] at hq; cases hq
      have hl' := hl2 hm hp
      have hs' := b.says_kept r hs hk
      have hW : Waiting net net' A = some q := by rw [b.wait, hm]; exact hq
      obtain ⟨_, _, _, g4, g5⟩ : m = [] ∧ t < (net.node A).timers.heartbeat.toNat ∧
          t < (net.node A).timers.broadcastEffect.toNat ∧
          (net'.node A).timers.heartbeat.toNat = (net.node A).timers.heartbeat.toNat ∧
          (net'.node A).timers.broadcastEffect.toNat =
            (net.node A).timers.broadcastEffect.toNat := by
        rcases cases3 with g | ⟨_, g, _⟩ | ⟨_, g, _⟩
        · exact g
        · omega
        · omega
      rcases r.taken with ⟨e1, _⟩ | ⟨k, p, _, e1, e2, e3⟩
      · rw [e1] at hW; cases hW
      · by_cases hk' : A = k
        · subst hk'
          rw [hW] at e1; cases e1
          have hu : Unheard net' A q := b.fresh q hW
          exact .slot q hs' e2 hu ty (by omega)
        · exact .firm q e hs' (by rw [e3, if_neg hk']; exact hW) ty (by omega) (by omega) (by omega) h3
    | waiting hb hs =>
      have hlate0 := b.onTime.bcast
      rcases cases3 with ⟨g1, _, _, _, g5⟩ | ⟨⟨q, g1⟩, _, _, _, g5⟩ | ⟨g1, g2, g3, g4⟩
      · refine .waiting (by omega) ?_
        rcases hs with hs | hs
        · exact .inl (b.says_kept r hs hk)
        · by_cases hp : net.packet = none
          · refine .inl fun q hq => ?_
            have hW := b.source r hq
            rw [b.wait, g1, b.empty hp] at hW
            cases hW
          · exact .inr (by have := hl2 g1 hp; omega)
      · exact .waiting (by omega) (.inl (b.says_sent r (by rw [g1]; simp)))
      · have hs' := b.says_sent r g1
        by_cases hlate : t + 1 ≤ x + 4 * n + 1
        · exact .waiting (by omega) (.inl hs')
        · obtain ⟨q, hq, so⟩ := b.repeats <| .inl fun e => by
            have : (net'.node A).timers.broadcastEffect.toNat =
              (net.node A).timers.broadcastEffect.toNat := by rw [e]
            omega
          have hW : Waiting net net' A = some q := by rw [b.wait, hq]; rfl
          have ty : q.type = .setEffect := by
            rw [so.type, hk.type]; exact (ab.node A).instr
          by_cases hH : t + 1 + 2 * n ≤ (net'.node A).timers.heartbeat.toNat
          · rcases r.taken with ⟨e1, _⟩ | ⟨k, p, _, e1, e2, e3⟩
            · rw [e1] at hW; cases hW
            · by_cases hk' : A = k
              · subst hk'
                rw [hW] at e1; cases e1
                exact .slot q hs' e2 (b.fresh q hW) ty (by omega)
              · exact .firm q (t + 1 + 2 * n) hs' (by rw [e3, if_neg hk']; exact hW) ty (by omega)
                  hH (by omega) (by omega)
          · -- a heartbeat is near, so nothing else is on its way
            have hp : net.packet = none := by
              apply Classical.byContradiction
              intro hp
              have := c.busy (t - 2 * n - 1) (by omega) (by omega) (by omega) hp
              have hv : 1 ≤ net.load A v := by
                unfold FakeNet.load
                cases hq' : net.packet with
                | none => exact absurd hq' hp
                | some q' => have := (c.weight q' hq').1; omega
              omega
            have hW0 : ∀ i, i ≠ A → Waiting net net' i = none := by
              intro i hi
              rcases b.others i hi with ⟨_, e'⟩ | ⟨q, e', _⟩
              · rw [waiting_same (by rw [e']), b.empty hp]
              · rw [hp] at e'; cases e'
            rcases r.taken with ⟨e1, _⟩ | ⟨k, p, _, e1, e2, e3⟩
            · rw [e1] at hW; cases hW
            · by_cases hk' : A = k
              · subst hk'
                rw [hW] at e1; cases e1
                exact .slot q hs' e2 (b.fresh q hW) ty (by omega)
              · rw [hW0 k (Ne.symm hk')] at e1; cases e1
  · -- the instruction changes
    have f := b.fires
    have hne : (net'.node A).timers.changeEffect.toNat ≠
      (net.node A).timers.changeEffect.toNat := fun e => hkc (BitVec.eq_of_toNat_eq e)
    have hx : t = (net.node A).timers.changeEffect.toNat ∧
        (net'.node A).timers.changeEffect.toNat = t + 60001 ∧ m ≠ [] := by
      generalize (net'.node A).timers.broadcastEffect.toNat = b' at *
      generalize (net'.node A).timers.heartbeat.toNat = h' at *
      generalize (net'.node A).timers.changeEffect.toNat = c' at *
      cases f <;> first | omega | exact ⟨by omega, by omega, by simp⟩
    exact ⟨t + 1, v', ⟨Nat.le_refl _, hb', hw', fun y _ _ hy _ => by omega,
      .waiting (by omega) (.inl (b.says_sent r hx.2.2))⟩, .inr ⟨rfl, hx.1, hx.2.1⟩⟩

theorem booted_bcast {n} {net : FakeNet n} (b : net.Booted) (hn : n ≤ 99) (i : Fin n) :
    (net.node i).timers.broadcastEffect.toNat ≤ net.now.toNat + 2000 := by
  obtain ⟨rand, junk, junk', seeds, h⟩ := b.device i
  obtain ⟨s, e, k⟩ := newNode_able (BitVec.ofNat 32 (i.val + 1)) rand junk junk' seeds
  simp only [boot, e, bind, Except.bind] at h
  obtain ⟨ht, _⟩ := step_tick h
  have e0 : s.timers.broadcastEffect = 0 := by
    simp only [newNode] at e
    obtain ⟨r, _, hnode⟩ := Node.bind_ok e
    rw [← Except.ok.inj hnode]
    simp only [Node.setNumEffects, Node.setNumPalettes, Node.init, Node.beginSlave,
        Node.armSlaveTimeout_eq]
  have hi : (BitVec.ofNat 32 (i.val + 1)).toNat = i.val + 1 := by
    rw [BitVec.toNat_ofNat]; omega
  have hnow : net.now.toNat = n := by
    rw [b.now, BitVec.toNat_ofNat]; omega
  rcases k.tick_bcast (rx := none) (fun p hp => by cases hp) ht with h | h
  · rw [h, e0]; exact Nat.zero_le _
  · rw [h, Node.add_toNat (by omega) (by decide), hi, hnow]
    have := i.isLt
    show i.val + 1 + 2000 ≤ _
    omega

end FakeNet

open FakeNet

section
variable {n : Nat} {net : Nat → FakeNet n} {d : Nat → U32} {N : Nat}

theorem Spec.Course.able (c : Course net d N) {k : Nat} (hk : k ≤ N) : (net k).Able := by
  induction k with
  | zero => exact booted_able c.start
  | succ k ih =>
    obtain ⟨draws, h⟩ := c.step k (by omega)
    have a : ((net k).advanceMillis (d k)).Able := ⟨(ih (by omega)).1, (ih (by omega)).2, (ih (by omega)).3⟩
    obtain ⟨net', e, a'⟩ := tick_able (draws := draws) a
    rw [h] at e
    rw [Except.ok.inj e]; exact a'

/-- From `n` `Tick`s after the first master appeared. -/
theorem Spec.Course.stable (c : Course net d N) (hn : n ≤ 99) {k₀ : Nat} (hk : k₀ + n ≤ N)
    (hm : (net k₀).getNumMasters ≠ 0) (hm' : ∀ j < k₀, (net j).getNumMasters = 0) :
    ∃ A, ∀ j, k₀ + n + j ≤ N → Stable (net (k₀ + n + j)) A (net (k₀ + n + j)).now.toNat := by
  obtain ⟨A₀, _⟩ := c.appears hn (by omega) hm hm'
  have hpos : 0 < n := A₀.pos
  have e : k₀ + 1 + (n - 1) = k₀ + n := by omega
  obtain ⟨h1, h2⟩ := c.elects hn hm hm' (j := n - 1) (by omega)
  rw [e] at h1 h2
  have hst : ∃ A, FakeNet.Stable (net (k₀ + n)) A (net (k₀ + n)).now.toNat := by
    rcases h2 with ⟨_, A, x, g1, g2⟩ | h2
    · obtain ⟨_, _, g5, _, g50⟩ := c.appears hn (by omega) hm hm'
      exact ⟨A, g1.stable (g1.sole (by omega)) hn (by omega) (by omega) (by omega)⟩
    · exact h2
  obtain ⟨A, hst⟩ := hst
  refine ⟨A, fun j => ?_⟩
  induction j with
  | zero => exact fun _ => hst
  | succ j ih =>
    exact fun hj => Stable.later (c := c) hn (k := k₀ + n + j) (by omega) (ih (by omega))

/-- The `Tick` in which the master chooses an instruction. -/
def FakeNet.Chooses (net : Nat → FakeNet n) (A : Fin n) (k : Nat) : Prop :=
  ((net k).node A).timers.changeEffect ≠ ((net (k - 1)).node A).timers.changeEffect

/-- A `Tick` of a network with one master. -/
theorem Spec.Course.beat (c : Course net d N) (hn : n ≤ 99) {k : Nat} (hk : k < N) {A}
    (s : Stable (net k) A (net k).now.toNat) :
    (net (k + 1)).now.toNat = (net k).now.toNat + 1 ∧
    ∃ m, Beat ((net k).advanceMillis (d k)) (net (k + 1)) A (net k).now.toNat m ∧
      Round ((net k).advanceMillis (d k)) (net (k + 1)) fun _ =>
        ((net k).advanceMillis (d k)).air := by
  have hm : (net k).getNumMasters ≠ 0 := by rw [getNumMasters_one s.only]; decide
  have hs := c.slow hk hm
  have hl : (net k).loss = 0 := by obtain ⟨_, _, _, _, _, _, s⟩ := s; exact s.loss
  have r := c.round hk hl
  have hw := c.clock (k + 1) (by omega)
  rw [r.now] at hw ⊢
  have s' : Stable ((net k).advanceMillis (d k)) A (net k).now.toNat := by
    obtain ⟨a1, a2, a3, a4, a5, a6, s⟩ := s
    exact ⟨a1, a2, a3, a4, a5, a6, s.1, s.2, s.3, s.4, s.5, s.6, s.7, s.8, s.9, s.10, s.11, s.12,
      s.13, s.14, s.15, s.16⟩
  have a := c.able (k := k) (by omega)
  obtain ⟨m, b⟩ := s'.beat hn r hs hw (c.fresh k hk) ⟨a.1, a.2, a.3⟩
  exact ⟨hs, m, b, r⟩

theorem Spec.Course.loss (c : Course net d N) {k : Nat} (hk : k ≤ N) : (net k).loss = 0 := by
  induction k with
  | zero => exact c.start.loss
  | succ k ih =>
    obtain ⟨draws, h⟩ := c.step k (by omega)
    rw [(tick_round h).loss]; exact ih (by omega)

/-- When the devices next repeat. -/
theorem Spec.Course.bcast (c : Course net d N) (hn : n ≤ 99) {k : Nat} (hk : k ≤ N) (i : Fin n) :
    ((net k).node i).timers.broadcastEffect.toNat ≤ (net k).now.toNat + 2000 := by
  induction k with
  | zero => exact booted_bcast c.start hn i
  | succ k ih =>
    have ih := ih (by omega)
    have r := c.round (k := k) (by omega) (c.loss (by omega))
    have a := c.able (k := k) (by omega)
    have hw := c.clock k (by omega)
    have hnow : ((net k).advanceMillis (d k)).now.toNat = (net k).now.toNat + (d k).toNat := by
      show ((net k).now + d k).toNat = _
      rw [BitVec.toNat_add]
      by_cases hm : (net k).getNumMasters = 0
      · have := c.early k (by omega) hm; omega
      · rw [c.pace k (by omega) hm]
        have : (1 : U32).toNat = 1 := rfl
        omega
    have hw' := c.clock (k + 1) hk
    rw [r.now] at hw' ⊢
    rcases (a.node i).tick_bcast (fun p hp => by
        obtain ⟨q, hq, e⟩ := Option.map_eq_some_iff.1 hp
        rw [← e]; exact regular_tidy (a.packet q hq)) (r.ticks i) with e | e
    · rw [e]; omega
    · rw [e, Node.add_toNat hw' (by decide)]
      exact Nat.le_refl _

/-- How far the master's instruction has got. -/
theorem Spec.Course.tell (c : Course net d N) (hn : n ≤ 99) {k₁ : Nat} {A}
    (st : ∀ j, k₁ + j ≤ N → Stable (net (k₁ + j)) A (net (k₁ + j)).now.toNat) {j : Nat}
    (hj : k₁ + 1 + j ≤ N) :
    (net (k₁ + 1 + j)).now.toNat = (net k₁).now.toNat + 1 + j ∧
    ∃ x v, Tell (net (k₁ + 1 + j)) A (net (k₁ + 1 + j)).now.toNat ((net k₁).now.toNat + 1 + x) v ∧
      (x = 0 ∨ x ≤ j ∧ Chooses net A (k₁ + 1 + x)) ∧
      ((∃ y, y ≤ j ∧ 0 < y ∧ Chooses net A (k₁ + 1 + y)) → 
        ((net (k₁ + 1 + j)).node A).setEffectPacket.data[0] =
          ((net (k₁ + 1 + j)).node A).effectIndex) := by
  induction j with
  | zero =>
    obtain ⟨e, m, b, r⟩ := c.beat hn (k := k₁) (by omega) (st 0 (by omega))
    have hb : (((net k₁).advanceMillis (d k₁)).node A).timers.broadcastEffect.toNat ≤
      (net k₁).now.toNat + 2001 := Nat.le_trans (c.bcast hn (by omega) A) (by omega)
    obtain ⟨v, h⟩ := b.start r hb
    refine ⟨e, 0, v, ?_, .inl rfl, fun ⟨y, h1, h2, _⟩ => absurd h2 (by omega)⟩
    show Tell (net (k₁ + 1)) A (net (k₁ + 1)).now.toNat _ v
    rw [e]; exact h
  | succ j ih =>
    obtain ⟨e0, x, v, ih, hx, hy⟩ := ih (by omega)
    obtain ⟨e, m, b, r⟩ := c.beat hn (k := k₁ + 1 + j) (by omega)
      (by have := st (1 + j) (by omega); rwa [← Nat.add_assoc] at this)
    have a := c.able (k := k₁ + 1 + j) (by omega)
    have hkj : k₁ + 1 + (j + 1) = k₁ + 1 + j + 1 := by omega
    rw [hkj]
    obtain ⟨x', v', h, hx'⟩ := b.tell r hn ⟨a.1, a.2, a.3⟩
      ⟨ih.past, ih.bcast, ih.weight, ih.busy, by
        cases ih.reach with
        | synced h s => exact .synced h s
        | waiting h s => exact .waiting h s
        | firm q e h hq ty hl h1 h2 h3 => exact .firm q e h hq ty hl h1 h2 h3
        | slot q h hq hu ty ht => exact .slot q h hq hu ty ht⟩
    have hlen : ((net (k₁ + 1 + j)).node A).setEffectPacket.len = 3 :=
      (Node.regular_effect (a.node A).regular (a.node A).instr).1
    refine ⟨by rw [e, e0]; omega, ?_⟩
    rw [← e] at h
    rcases b.keeps with ⟨hk, hi, hc⟩ | ⟨hi, hc⟩
    · have hx' : x' = (net k₁).now.toNat + 1 + x := by
        rcases hx' with ⟨h, _⟩ | ⟨_, h1, h2⟩
        · exact h
        · have : ((net (k₁ + 1 + j + 1)).node A).timers.changeEffect.toNat =
            (((net (k₁ + 1 + j)).advanceMillis (d (k₁ + 1 + j))).node A).timers.changeEffect.toNat :=
            by rw [hc]
          omega
      subst hx'
      refine ⟨x, v', h, hx.imp id fun ⟨h1, h2⟩ => ⟨by omega, h2⟩, fun ⟨y, h1, h2, h3⟩ => ?_⟩
      have hy1 : y ≠ j + 1 := by
        rintro rfl
        exact h3 hc
      have := hy ⟨y, by omega, h2, h3⟩
      rw [hi, hk.used 0 (by decide) (by rw [hk.len]; show 0 < (((net (k₁ + 1 + j)).node A).setEffectPacket.len).toNat; rw [hlen]; decide)]
      exact this
    · have hch : Chooses net A (k₁ + 1 + (j + 1)) := hc
      rcases hx' with ⟨h1, _⟩ | ⟨h1, _⟩
      · subst h1
        exact ⟨x, v', h, hx.imp id fun ⟨h1, h2⟩ => ⟨by omega, h2⟩, fun _ => hi⟩
      · subst h1
        refine ⟨j + 1, v', ?_, .inr ⟨Nat.le_refl _, hch⟩, fun _ => hi⟩
        rw [e0, show (net k₁).now.toNat + 1 + j + 1 = (net k₁).now.toNat + 1 + (j + 1) by omega] at h
        exact h

/-- When the master chooses. -/
theorem Spec.Course.chooses (c : Course net d N) (hn : n ≤ 99) {k : Nat} (hk : k < N) {A}
    (s : Stable (net k) A (net k).now.toNat) :
    (net k).now.toNat ≤ ((net k).node A).timers.changeEffect.toNat ∧
    (Chooses net A (k + 1) ↔ (net k).now.toNat = ((net k).node A).timers.changeEffect.toNat) ∧
    (Chooses net A (k + 1) → ((net (k + 1)).node A).timers.changeEffect.toNat =
      (net k).now.toNat + 60001) ∧
    (¬ Chooses net A (k + 1) → SameOrder ((net (k + 1)).node A).setEffectPacket
        ((net k).node A).setEffectPacket ∧
      ((net (k + 1)).node A).effectIndex = ((net k).node A).effectIndex ∧
      ((net (k + 1)).node A).timers.changeEffect = ((net k).node A).timers.changeEffect) := by
  obtain ⟨e, m, b, r⟩ := c.beat hn hk s
  have f := b.fires
  have h1 := b.onTime.change
  refine ⟨h1, ?_, ?_, ?_⟩
  · show (_ ≠ _) ↔ _
    rw [show k + 1 - 1 = k from rfl, ne_eq, ← BitVec.toNat_inj]
    show ¬ ((net (k + 1)).node A).timers.changeEffect.toNat =
      (((net k).advanceMillis (d k)).node A).timers.changeEffect.toNat ↔ _ =
      (((net k).advanceMillis (d k)).node A).timers.changeEffect.toNat
    generalize ((net (k + 1)).node A).timers.broadcastEffect.toNat = b' at *
    generalize ((net (k + 1)).node A).timers.heartbeat.toNat = h' at *
    generalize ((net (k + 1)).node A).timers.changeEffect.toNat = c' at *
    cases f <;> omega
  · intro h
    have h : ¬ ((net (k + 1)).node A).timers.changeEffect.toNat =
      (((net k).advanceMillis (d k)).node A).timers.changeEffect.toNat := fun e =>
        h (BitVec.eq_of_toNat_eq e)
    generalize ((net (k + 1)).node A).timers.broadcastEffect.toNat = b' at *
    generalize ((net (k + 1)).node A).timers.heartbeat.toNat = h' at *
    generalize ((net (k + 1)).node A).timers.changeEffect.toNat = c' at *
    cases f <;> omega
  · intro h
    rcases b.keeps with hk | ⟨_, hc⟩
    · exact hk
    · exact absurd hc h

end

end Firefly
