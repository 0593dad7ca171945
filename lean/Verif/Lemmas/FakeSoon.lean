import Verif.Lemmas.FakeAgree
import Verif.Lemmas.FakeLost

/-! # How soon the devices of the test network follow a change -/

namespace Firefly
open Spec

namespace FakeNet

/-- How far the master's instruction has got, if it need not be repeated: in `r` more `Tick`s in which
the master sends nothing it is with all. -/
inductive Soon {n} (net : FakeNet n) (A : Fin n) (r v : Nat) : Prop
  | synced (h : Says net A) (s : Synced net A)
  | slot (q) (h : Says net A) (hq : net.packet = some q) (hu : Unheard net A q)
      (ty : q.type = .setEffect)
  | queued (q) (h : Says net A) (hq : (net.radio A).sent = some q) (ty : q.type = .setEffect)
      (hl : net.load A v ≤ r)

/-- A bound for what is on its way. -/
def Weighs {n} (net : FakeNet n) (A : Fin n) (v : Nat) : Prop :=
  ∀ q ∈ net.packet, 1 ≤ v ∧ (Unheard net A q → n ≤ v)

/-- A `Tick` in which the instruction stays. -/
theorem Beat.soon {n} {net net' : FakeNet n} {A t m r v} (b : Beat net net' A t m)
    (rd : Round net net' fun _ => net.air) (ab : net.Able)
    (hk : SameOrder (net'.node A).setEffectPacket (net.node A).setEffectPacket)
    (hv : Weighs net A v) (c : Soon net A r v) (hm : m = [] ∨ r < n) :
    ∃ v', Weighs net' A v' ∧ Soon net' A (r - 1) v' := by
  obtain ⟨v', _, h2, h3⟩ := b.load rd hv
  refine ⟨v', h2, ?_⟩
  cases c with
  | synced h s => exact .synced (b.says_kept rd h hk) (b.synced ab h hk (.inl s))
  | slot q h hq hu ty =>
    exact .synced (b.says_kept rd h hk) (b.synced ab h hk (.inr ⟨q, hq, hu, ty⟩))
  | queued q h hq ty hl =>
    have hpos : n ≤ net.load A v := by
      unfold FakeNet.load
      rw [hq]; simp only [Option.isSome_some, if_true]; omega
    have hm : m = [] := hm.resolve_right (by omega)
    have hp : net.packet ≠ none := fun e => by rw [b.empty e] at hq; cases hq
    have hl' := h3 hm hp
    have hs' := b.says_kept rd h hk
    have hW : Waiting net net' A = some q := by rw [b.wait, hm]; exact hq
    rcases rd.taken with ⟨e1, _⟩ | ⟨k, p, _, e1, e2, e3⟩
    · rw [e1] at hW; cases hW
    · by_cases hk' : A = k
      · subst hk'
        rw [hW] at e1; cases e1
        exact .slot q hs' e2 (b.fresh q hW) ty
      · exact .queued q hs' (by rw [e3, if_neg hk']; exact hW) ty (by omega)

/-- The `Tick` in which the instruction changes. -/
theorem Beat.changes {n} {net net' : FakeNet n} {A t m} (b : Beat net net' A t m)
    (rd : Round net net' fun _ => net.air) (ab : net'.Able)
    (hc : (net'.node A).timers.changeEffect ≠ (net.node A).timers.changeEffect) :
    ∃ v', Weighs net' A v' ∧ Soon net' A (2 * n - 1) v' ∧
      (net.packet = none → ∃ q, Says net' A ∧ net'.packet = some q ∧ Unheard net' A q ∧
        q.type = .setEffect) := by
  obtain ⟨v', h1, h2, _⟩ := b.load rd (v := n) fun q _ => ⟨A.pos, fun _ => Nat.le_refl _⟩
  obtain ⟨q, hq, so⟩ := b.repeats (.inr hc)
  have hm : m ≠ [] := by rintro rfl; cases hq
  have hs := b.says_sent rd hm
  have hW : Waiting net net' A = some q := by rw [b.wait, hq]; rfl
  have ty : q.type = .setEffect := so.type.trans (ab.node A).instr
  refine ⟨v', h2, ?_⟩
  rcases rd.taken with ⟨e1, _⟩ | ⟨k, p, _, e1, e2, e3⟩
  · rw [e1] at hW; cases hW
  · by_cases hk' : A = k
    · subst hk'
      rw [hW] at e1; cases e1
      exact ⟨.slot q hs e2 (b.fresh q hW) ty, fun _ => ⟨q, hs, e2, b.fresh q hW, ty⟩⟩
    · refine ⟨.queued q hs (by rw [e3, if_neg hk']; exact hW) ty (by omega), fun hp => ?_⟩
      exfalso
      rcases b.others k (Ne.symm hk') with ⟨_, e'⟩ | ⟨q', e', _⟩
      · rw [waiting_same (by rw [e']), b.empty hp] at e1; cases e1
      · rw [hp] at e'; cases e'

end FakeNet

section
variable {n : Nat} {net : Nat → FakeNet n} {d : Nat → U32} {N : Nat}
open FakeNet

/-- From a change on, as long as the master says nothing and chooses nothing. -/
theorem Spec.Course.soon (c : Course net d N) (hn : n ≤ 99) {k : Nat} {A}
    (st : ∀ j, k ≤ j → j ≤ N → Stable (net j) A (net j).now.toNat) (hk : k < N)
    (hc : Chooses net A (k + 1)) {x : Nat}
    (hx : x = n + 1 ∨ (x = 1 ∧ (net k).packet = none))
    (hs : x = 1 ∨ ((net (k + 1 + x)).node A).sent = ((net (k + 1)).node A).sent)
    {j : Nat} (hj : x ≤ j) (hjN : k + 1 + j ≤ N)
    (hno : ∀ y, 0 < y → y ≤ j → ¬ Chooses net A (k + 1 + y)) :
    Synced (net (k + 1 + j)) A := by
  obtain ⟨e, m, b, rd⟩ := c.beat hn hk (st k (by omega) (by omega))
  have a := c.able (k := k + 1) (by omega)
  obtain ⟨v, w, sn, q0⟩ := b.changes rd a hc
  have hpos : 0 < n := A.pos
  -- later ones
  have later : ∀ y, k + 1 + y < N → y + 1 ≤ j →
      ∃ m, Beat ((net (k + 1 + y)).advanceMillis (d (k + 1 + y))) (net (k + 1 + y + 1)) A
        (net (k + 1 + y)).now.toNat m ∧
      Round ((net (k + 1 + y)).advanceMillis (d (k + 1 + y))) (net (k + 1 + y + 1)) (fun _ =>
        ((net (k + 1 + y)).advanceMillis (d (k + 1 + y))).air) ∧
      ((net (k + 1 + y)).advanceMillis (d (k + 1 + y))).Able ∧
      SameOrder ((net (k + 1 + y + 1)).node A).setEffectPacket
        (((net (k + 1 + y)).advanceMillis (d (k + 1 + y))).node A).setEffectPacket := by
    intro y hy hyj
    obtain ⟨_, m, b, rd⟩ := c.beat hn hy (st _ (by omega) (by omega))
    have a := c.able (k := k + 1 + y) (by omega)
    refine ⟨m, b, rd, ⟨a.1, a.2, a.3⟩, ?_⟩
    rcases b.keeps with h | ⟨_, h⟩
    · exact h.1
    · exact absurd h (hno (y + 1) (by omega) hyj)
  have mono : ∀ z y, y + z ≤ j → ∃ l, ((net (k + 1 + (y + z))).node A).sent =
      ((net (k + 1 + y)).node A).sent ++ l := by
    intro z y
    induction z with
    | zero => exact fun _ => ⟨[], by simp⟩
    | succ z ih =>
      intro hz
      obtain ⟨l, hl⟩ := ih (by omega)
      obtain ⟨m, b, _⟩ := later (y + z) (by omega) (by omega)
      have := b.sent
      refine ⟨l ++ m, ?_⟩
      rw [show k + 1 + (y + (z + 1)) = k + 1 + (y + z) + 1 by omega, this]
      show ((net (k + 1 + (y + z))).node A).sent ++ m = _
      rw [hl, List.append_assoc]
  have done : ∀ y, x ≤ y → y ≤ j → Says (net (k + 1 + y)) A ∧ Synced (net (k + 1 + y)) A := by
    suffices hx0 : Says (net (k + 1 + x)) A ∧ Synced (net (k + 1 + x)) A by
      intro y hxy
      obtain ⟨z, rfl⟩ : ∃ z, y = x + z := ⟨y - x, by omega⟩
      clear hxy
      induction z with
      | zero => exact fun _ => hx0
      | succ z ih =>
        intro hz
        obtain ⟨i1, i2⟩ := ih (by omega)
        obtain ⟨m, b, rd, a, hk⟩ := later (x + z) (by omega) (by omega)
        exact ⟨b.says_kept rd i1 hk, b.synced a i1 hk (.inl i2)⟩
    rcases hx with rfl | ⟨rfl, hp⟩
    · have hs := hs.resolve_left (by omega)
      have key : ∀ y, y ≤ n + 1 → ∃ v, Weighs (net (k + 1 + y)) A v ∧
          Soon (net (k + 1 + y)) A (2 * n - 1 - y) v := by
        intro y
        induction y with
        | zero => exact fun _ => ⟨v, w, sn⟩
        | succ y ih =>
          intro hy
          obtain ⟨v, w, sn⟩ := ih (by omega)
          obtain ⟨m, b, rd, a, hk⟩ := later y (by omega) (by omega)
          have hm : m = [] := by
            obtain ⟨l, hl⟩ := mono y 0 (by omega)
            obtain ⟨l', hl'⟩ := mono (n + 1 - (y + 1)) (y + 1) (by omega)
            rw [Nat.zero_add] at hl
            rw [show y + 1 + (n + 1 - (y + 1)) = n + 1 by omega, hs] at hl'
            have e' := b.sent
            have e' : ((net (k + 1 + (y + 1))).node A).sent =
              ((net (k + 1 + y)).node A).sent ++ m := e'
            rw [e', hl] at hl'
            have := congrArg List.length hl'
            simp only [List.length_append] at this
            have : m.length = 0 := by
              have e0 : (net (k + 1 + 0)) = net (k + 1) := rfl
              rw [e0] at this
              omega
            exact List.length_eq_zero_iff.1 this
          obtain ⟨v', w', sn'⟩ := b.soon rd a hk w (by
            cases sn with
            | synced h s => exact .synced h s
            | slot q h hq hu ty => exact .slot q h hq hu ty
            | queued q h hq ty hl => exact .queued q h hq ty hl) (.inl hm)
          exact ⟨v', w', by rw [show 2 * n - 1 - (y + 1) = 2 * n - 1 - y - 1 by omega]; exact sn'⟩
      -- it has got to all
      obtain ⟨v, w, sn⟩ := key n (by omega)
      obtain ⟨m, b, rd, a, hk⟩ := later n (by omega) (by omega)
      cases sn with
      | synced h s => exact ⟨b.says_kept rd h hk, b.synced a h hk (.inl s)⟩
      | slot q h hq hu ty =>
        exact ⟨b.says_kept rd h hk, b.synced a h hk (.inr ⟨q, hq, hu, ty⟩)⟩
      | queued q h hq ty hl =>
        have : n ≤ (net (k + 1 + n)).load A v := by
          unfold FakeNet.load
          rw [hq]; simp only [Option.isSome_some, if_true]; omega
        omega
    · obtain ⟨q, hs', hq, hu, ty⟩ := q0 hp
      obtain ⟨m, b, rd, a, hk⟩ := later 0 (by omega) (by omega)
      exact ⟨b.says_kept rd hs' hk, b.synced a hs' hk (.inr ⟨q, hq, hu, ty⟩)⟩
  exact (done j hj (Nat.le_refl _)).2

end

/-! ### Silence -/

namespace FakeNet

/-- Nothing is on its way and no device is going to send anything until the clock is past `T`. -/
structure Still {n} (net : FakeNet n) (T : Nat) : Prop where
  packet : net.packet = none
  radio : ∀ i, (net.radio i).sent = none
  sound : ∀ i, (net.node i).Sound0
  slave : ∀ i, (net.node i).state = .slave
  deadline : ∀ i, T ≤ (net.node i).timers.heartbeat.toNat

theorem Still.tick {n} {net net' : FakeNet n} {T draws} (c : Still net T)
    (h : net.tick draws = .ok net') (ht : net.now.toNat ≤ T) :
    Still net' T ∧ net'.now = net.now ∧
      ∀ i, net'.node i = { net.node i with tickRun := true } := by
  have r := tick_round h
  have e : ∀ i, net'.node i = { net.node i with tickRun := true } := by
    intro i
    refine (c.sound i).slave_quiet (c.slave i) ?_ ?_ (r.ticks i)
    · intro p hp
      unfold staged at hp
      rw [c.packet] at hp
      simp at hp
    · rw [BitVec.le_def]; exact Nat.le_trans ht (c.deadline i)
  have hW : ∀ i, Waiting net net' i = none := fun i => by
    rw [waiting_same (by rw [e i]), c.radio i]
  refine ⟨⟨?_, ?_, fun i => ?_, fun i => ?_, fun i => ?_⟩, r.now, e⟩
  · rcases r.taken with ⟨_, e', _⟩ | ⟨k, p, _, e', _⟩
    · exact e'
    · rw [hW] at e'; cases e'
  · rcases r.taken with ⟨_, _, e'⟩ | ⟨k, p, _, e', _⟩
    · exact e'
    · rw [hW] at e'; cases e'
  · exact ((c.sound i).after (r.ticks i)).zero
  · rw [e i]; exact c.slave i
  · rw [e i]; exact c.deadline i

theorem Still.run {n} {net net' : FakeNet n} {T R draws} (c : Still net T)
    (h : net.runTicks draws R = .ok net') (ht : net.now.toNat + R ≤ T) (hT : T < 2 ^ 32) :
    Still net' T ∧ net'.now.toNat = net.now.toNat + R ∧
      ∀ i, (net'.node i).effectIndex = (net.node i).effectIndex ∧
        (net'.node i).setEffectPacket = (net.node i).setEffectPacket := by
  induction R generalizing net with
  | zero => cases h; exact ⟨c, rfl, fun _ => ⟨rfl, rfl⟩⟩
  | succ R ih =>
    obtain ⟨net₁, h1, h2⟩ := Node.bind_ok h
    have hnow : (net.advanceMillis 1).now.toNat = net.now.toNat + 1 := by
      show (net.now + 1).toNat = _
      rw [BitVec.toNat_add]
      have : (1 : U32).toNat = 1 := rfl
      omega
    have c' : Still (net.advanceMillis 1) T := ⟨c.1, c.2, c.3, c.4, c.5⟩
    obtain ⟨c1, e1, e2⟩ := c'.tick h1 (by omega)
    have hn1 : net₁.now.toNat = net.now.toNat + 1 := by rw [e1]; exact hnow
    obtain ⟨k1, k2, k3⟩ := ih c1 h2 (by omega)
    refine ⟨k1, by omega, fun i => ?_⟩
    obtain ⟨g1, g2⟩ := k3 i
    rw [g1, g2, e2 i]
    exact ⟨rfl, rfl⟩

/-- When the master of a network is reset and nothing is on its way. -/
theorem Stable.still {n} {net net' : FakeNet n} {A rand junk junk' seeds}
    (c : Stable net A net.now.toNat) (hp : net.packet = none)
    (hw : net.now.toNat + 255000 < 2 ^ 32)
    (h : net.reinitNode A rand junk junk' seeds = .ok net') :
    Still net' (net.now.toNat + 997) ∧ net'.now = net.now ∧ (net'.node A).effectIndex = 0 := by
  obtain ⟨s₀, L, hh, v, l, S, c⟩ := c
  have hrad : ∀ i, (net.radio i).sent = none := by
    rcases c.slot with ⟨_, e⟩ | ⟨q, e, _⟩
    · exact e
    · rw [hp] at e; cases e
  have hL : net.now.toNat + 997 ≤ L + 5000 := by
    have h1 := c.onTime.beat
    rcases c.heart with hm | ⟨_, _, _, _, q, _, hq | ⟨hq, _⟩⟩
    · unfold Missed at hm; omega
    · rw [hrad A] at hq; cases hq
    · rw [hp] at hq; cases hq
  unfold reinitNode at h
  obtain ⟨node, hnode, h⟩ := Node.bind_ok h
  have h := (Except.ok.inj h).symm
  have b := newNode_reborn hnode hw
  have hidx : node.effectIndex = 0 := by
    unfold newNode at hnode
    obtain ⟨r, _, hnode⟩ := Node.bind_ok hnode
    cases hnode
    simp only [Node.setNumEffects, Node.setNumPalettes, Node.init, Node.beginSlave,
      Node.armSlaveTimeout_eq]
  have hA : net'.node A = node := by rw [h]; exact if_pos rfl
  have ho : ∀ i, i ≠ A → net'.node i = net.node i := fun i hi => by rw [h]; exact if_neg hi
  refine ⟨⟨by rw [h]; exact hp, by rw [h]; exact hrad, ?_, ?_, ?_⟩, by rw [h], by rw [hA]; exact hidx⟩
  · intro i
    by_cases hi : i = A
    · rw [hi, hA]; exact b.sound
    · rw [ho i hi]; exact (c.sound i).zero
  · intro i
    by_cases hi : i = A
    · rw [hi, hA]; exact b.slave
    · rw [ho i hi]; exact (c.slaves i hi).1
  · intro i
    by_cases hi : i = A
    · rw [hi, hA]; exact Nat.le_trans (by omega) b.deadline.1
    · rw [ho i hi]; exact Nat.le_trans (by omega) (c.slaves i hi).2

end FakeNet

end Firefly
