import Verif.Lemmas.FakeDispute

/-! # The winner remains the only master -/

namespace Firefly
open Spec FakeNet

namespace Node

/-- When a timer fires, seen from `t`: never if it is off, and at once if it is overdue. -/
def eff (t : Nat) (x : U32) : Nat := if x = 0 then 5000000000 else max x.toNat t

theorem eff_ge {t : Nat} {x : U32} (ht : t < 2 ^ 32) : t ≤ eff t x := by
  unfold eff; split <;> omega

theorem due_eff {now x : U32} {t : Nat} (h : now.toNat = t + 1) : Due now x ↔ eff t x = t := by
  have := now.isLt
  unfold Due eff
  rw [BitVec.lt_def]
  by_cases e : x = 0
  · rw [if_pos e]
    exact ⟨fun h => absurd e h.1, fun h => by omega⟩
  · rw [if_neg e]
    exact ⟨fun h => by omega, fun h => ⟨e, by omega⟩⟩

theorem eff_next {t : Nat} {x : U32} (ht : t + 1 < 2 ^ 32) :
    eff (t + 1) x = max (eff t x) (t + 1) := by
  unfold eff; split <;> omega

theorem eff_armed {now x : U32} {t d : Nat} (h : now.toNat = t + 1) (hx : x.toNat = now.toNat + d) :
    eff (t + 1) x = t + 1 + d := by
  unfold eff
  rw [if_neg (by intro e; rw [e] at hx; have : (0 : U32).toNat = 0 := rfl; omega)]
  omega

/-- What a master transmits in a `Tick` at `t + 1`, and its timers afterwards. -/
inductive Shoots (t H c b : Nat) : Nat → Nat → Nat → List Packet → Prop
  | none : t < H → t < c → t < b → Shoots t H c b H c b []
  | beat (q : Packet) : q.type = .heartbeat → H = t → t < c → t < b →
      Shoots t H c b (t + 1001) c b [q]
  | change (q : Packet) : t < H → c = t → t < b → Shoots t H c b H (t + 60001) b [q]
  | repeat (q : Packet) : t < H → t < c → b = t → Shoots t H c b H c (t + 2001) [q]
  | beatChange (q r : Packet) : H = t → c = t → t ≤ b →
      Shoots t H c b (t + 1001) (t + 60001) (max b (t + 1)) [q, r]
  | beatRepeat (q r : Packet) : H = t → t < c → b = t →
      Shoots t H c b (t + 1001) c (t + 2001) [q, r]
  | changeRepeat (q r : Packet) : t < H → c = t → b = t →
      Shoots t H c b H (t + 60001) (t + 2001) [q, r]

theorem shoots_of {now : U32} {t : Nat} {T T₁ T' : Timers} {l₁ l₂ : List Packet}
    (hn : now.toNat = t + 1) (hw : now.toNat + 255000 < 2 ^ 32)
    (f1 : Acts now T T₁ l₁) (f2 : Acts now T₁ T' l₂) :
    Shoots t (eff t T.heartbeat) (eff t T.changeEffect) (eff t T.broadcastEffect)
      (eff (t + 1) T'.heartbeat) (eff (t + 1) T'.changeEffect) (eff (t + 1) T'.broadcastEffect)
      (l₁ ++ l₂) := by
  obtain ⟨a1, a2, a3⟩ := sums hw
  have e1 : eff (t + 1) (now + 1000) = t + 1001 := (eff_armed hn a1).trans (by omega)
  have e2 : eff (t + 1) (now + 2000) = t + 2001 := (eff_armed hn a2).trans (by omega)
  have e3 : eff (t + 1) (now + 60000) = t + 60001 := (eff_armed hn a3).trans (by omega)
  have d1 : ¬ Due now (now + 1000) := not_due (by omega)
  have d2 : ¬ Due now (now + 2000) := not_due (by omega)
  have d3 : ¬ Due now (now + 60000) := not_due (by omega)
  have hH := due_eff (x := T.heartbeat) hn
  have hc := due_eff (x := T.changeEffect) hn
  have hb := due_eff (x := T.broadcastEffect) hn
  have gH := eff_ge (t := t) (x := T.heartbeat) (by omega)
  have gc := eff_ge (t := t) (x := T.changeEffect) (by omega)
  have gb := eff_ge (t := t) (x := T.broadcastEffect) (by omega)
  have same : ∀ x : U32, ¬ eff t x = t → t ≤ eff t x → eff (t + 1) x = eff t x := by
    intro x h1 h2
    rw [eff_next (by omega)]; omega
  have mx := eff_next (t := t) (x := T.broadcastEffect) (by omega)
  cases f1 with
  | quiet q1 q2 q3 =>
    rw [hH] at q1
    rw [hc] at q2
    rw [hb] at q3
    cases f2 with
    | quiet =>
      rw [same _ q1 gH, same _ q2 gc, same _ q3 gb]
      exact .none (by omega) (by omega) (by omega)
    | beat r b => exact absurd (hH.1 b) q1
    | change r _ b => exact absurd (hc.1 b) q2
    | «repeat» r _ _ b => exact absurd (hb.1 b) q3
  | beat q q1 qt =>
    rw [hH] at q1
    cases f2 with
    | quiet b1 b2 b3 =>
      simp only [] at b2 b3
      rw [hc] at b2
      rw [hb] at b3
      simp only [e1]
      rw [same _ b2 gc, same _ b3 gb]
      exact .beat q qt (by omega) (by omega) (by omega)
    | beat r b => exact absurd b d1
    | change r b1 b2 =>
      simp only [] at b2
      rw [hc] at b2
      simp only [e1, e3]
      rw [mx]
      exact .beatChange q r (by omega) (by omega) (by omega)
    | «repeat» r b1 b2 b3 =>
      simp only [] at b2 b3
      rw [hc] at b2
      rw [hb] at b3
      simp only [e1, e2]
      rw [same _ b2 gc]
      exact .beatRepeat q r (by omega) (by omega) (by omega)
  | change q q1 q2 =>
    rw [hH] at q1
    rw [hc] at q2
    cases f2 with
    | quiet b1 b2 b3 =>
      simp only [] at b3
      rw [hb] at b3
      simp only [e3]
      rw [same _ q1 gH, same _ b3 gb]
      exact .change q (by omega) (by omega) (by omega)
    | beat r b => exact absurd (hH.1 b) q1
    | change r _ b => exact absurd b d3
    | «repeat» r b1 b2 b3 =>
      simp only [] at b3
      rw [hb] at b3
      simp only [e2, e3]
      rw [same _ q1 gH]
      exact .changeRepeat q r (by omega) (by omega) (by omega)
  | «repeat» q q1 q2 q3 =>
    rw [hH] at q1
    rw [hc] at q2
    rw [hb] at q3
    cases f2 with
    | quiet b1 b2 b3 =>
      simp only [e2]
      rw [same _ q1 gH, same _ q2 gc]
      exact .repeat q (by omega) (by omega) (by omega)
    | beat r b => exact absurd (hH.1 b) q1
    | change r _ b => exact absurd (hc.1 b) q2
    | «repeat» r _ _ b => exact absurd b d2

theorem Idle2.shoots {now} {s s' : Node} {m} {t : Nat} (h : Idle2 now s s' m)
    (hs : s.state = .master) (hn : now.toNat = t + 1) (hw : now.toNat + 255000 < 2 ^ 32) :
    Shoots t (eff t s.timers.heartbeat) (eff t s.timers.changeEffect)
      (eff t s.timers.broadcastEffect) (eff (t + 1) s'.timers.heartbeat)
      (eff (t + 1) s'.timers.changeEffect) (eff (t + 1) s'.timers.broadcastEffect) m := by
  obtain ⟨s₁, l₁, l₂, c1, c2, rfl⟩ := h
  have hs1 := c1.states.1 hs
  cases c1 with
  | slave e | takes _ _ e => rw [hs] at e; cases e
  | acts _ _ _ e A1 =>
    cases c2 with
    | slave e | takes _ _ e => rw [hs1] at e; cases e
    | acts _ _ _ e A2 => exact shoots_of hn hw A1 A2

theorem Shoots.next {t h c b H' c' b' m} (f : Shoots t (h + 1000) c b H' c' b' m) (hh : h ≤ t) :
    ∃ h', h' ≤ t + 1 ∧ H' = h' + 1000 := by
  cases f with
  | none | change | «repeat» | changeRepeat => exact ⟨h, by omega, by omega⟩
  | beat | beatChange | beatRepeat => exact ⟨t + 1, by omega, by omega⟩

/-- Without a heartbeat sent, the case stays. -/
theorem Shoots.missed {K t h c b H' c' b' m L} (f : Shoots t (h + 1000) c b H' c' b' m)
    (hK : K ≤ 300) (hL : L ≤ t) (hh : h ≤ t) (hlt : t < h + 1000) (hm : Missed K h L c b) :
    H' = h + 1000 ∧ Missed K h L c' b' := by
  unfold Missed Bfar Cfar at *
  cases f <;> refine ⟨by omega, by omega⟩

/-- When a heartbeat is sent, it will get through or the next case applies. -/
theorem Shoots.heartbeat {K t h c b H' c' b' m L} (f : Shoots t (h + 1000) c b H' c' b' m)
    (hK : K ≤ 300) (hL : L ≤ t) (heq : t = h + 1000) (hm : Missed K h L c b) :
    H' = (t + 1) + 1000 ∧ (Missed K (t + 1) L c' b' ∨
      (t + 1 ≤ L + 4004 ∧ t + 1 + K ≤ b' ∧ t + 1 + K ≤ c' ∧
        ∃ q : Packet, m = [q] ∧ q.type = .heartbeat)) := by
  cases f with
  | none | change | «repeat» | changeRepeat => omega
  | beat q hq _ _ _ =>
    refine ⟨by omega, ?_⟩
    by_cases hs : t + 1 + K ≤ b ∧ t + 1 + K ≤ c
    · refine .inr ⟨?_, hs.1, hs.2, q, rfl, hq⟩
      unfold Missed Bfar Cfar at hm; omega
    · left
      unfold Missed Bfar Cfar at *
      omega
  | beatChange | beatRepeat =>
    refine ⟨by omega, .inl ?_⟩
    unfold Missed Bfar Cfar at *
    omega

/-- A slave that is not due and hears something new. -/
theorem Takes2.slave {now p} {s s' : Node} {m} (h : Takes2 now p s s' m) (hs : s.state = .slave)
    (ht : now.toNat ≤ s.timers.heartbeat.toNat) :
    s'.state = .slave ∧ m = [] ∧ (now.toNat + 5000 ≤ s'.timers.heartbeat.toNat ∨
      (s'.timers.heartbeat = s.timers.heartbeat ∧ p.type ≠ .heartbeat)) := by
  obtain ⟨s₁, l₁, l₂, c1, c2, rfl⟩ := h
  cases c1 with
  | hears _ e _ _ t =>
    obtain ⟨rfl, rfl⟩ := c2.stays e (by omega)
    exact ⟨e, rfl, .inl t⟩
  | notes _ e _ hp t =>
    obtain ⟨rfl, rfl⟩ := c2.stays e (by rw [t]; omega)
    exact ⟨e, rfl, .inr ⟨by rw [t], fun h => hp (.inl h)⟩⟩
  | resigns e | claims _ e | follows e => rw [hs] at e; cases e

end Node

namespace FakeNet
open Node

/-- `A` is the only master, after a `Tick` at `t`; all others heard from it at `L` or later, and the
last heartbeat was sent at `h`. -/
structure SoloAt {n} (net : FakeNet n) (A : Fin n) (t s₀ : Nat) (cur : Option U16) (L h : Nat) :
    Prop where
  clean : Clean net t s₀ cur
  master : (net.node A).state = .master
  slaves : ∀ i, i ≠ A → (net.node i).state = .slave ∧
    L + 5000 ≤ (net.node i).timers.heartbeat.toNat
  heard : L ≤ t
  beat : eff t (net.node A).timers.heartbeat = h + 1000
  past : h ≤ t
  heart : Missed (n + 3) h L (eff t (net.node A).timers.changeEffect)
      (eff t (net.node A).timers.broadcastEffect) ∨
    (h ≤ L + 4004 ∧ h + (n + 3) ≤ eff t (net.node A).timers.broadcastEffect ∧
      h + (n + 3) ≤ eff t (net.node A).timers.changeEffect ∧
      ∃ q : Packet, q.type = .heartbeat ∧ Mine net A q ∧
        (((net.radio A).sent = some q ∧
            ∀ x ∈ cur, rel (fun i => (net.radio i).sent) x + t ≤ h + n) ∨
          (net.packet = some q ∧ (net.radio A).sent = none ∧ t ≤ h + n + 1)))

/-- `A` is, and remains, the only master. -/
def Solo {n} (net : FakeNet n) (A : Fin n) (t : Nat) : Prop :=
  ∃ s₀ cur L h, SoloAt net A t s₀ cur L h

theorem Won.solo {n} {net : FakeNet n} {A : Fin n} {t : Nat} (h : Won net t A) : Solo net A t := by
  obtain ⟨x, c⟩ := h.clean
  obtain ⟨b1, b2⟩ := c.beat A h.master
  have e : eff t (net.node A).timers.heartbeat =
      max (net.node A).timers.heartbeat.toNat t := by
    unfold eff
    rw [if_neg]
    intro e
    rw [e] at b1
    exact absurd b1 (by decide)
  refine ⟨t, some x, t, max (net.node A).timers.heartbeat.toNat t - 1000, c, h.master, h.slaves,
    Nat.le_refl _, by omega, by omega, .inl (.inl (by omega))⟩

/-- While the master waits to be heard, something old is. -/
theorem SoloAt.busy {n} {net : FakeNet n} {A : Fin n} {t s₀ cur L h}
    (c : SoloAt net A t s₀ cur L h) {q : Packet} (hs : (net.radio A).sent = some q) :
    ∃ q', net.packet = some q' ∧ q'.id ∈ cur ∧
      rel (fun i => (net.radio i).sent) q'.id + t ≤ s₀ + n := by
  rcases c.clean.air with ⟨_, h⟩ | ⟨q', hp, ⟨h1, h2⟩ | ⟨B, hB, hB'⟩⟩
  · rw [h A] at hs; cases hs
  · exact ⟨q', hp, h1, h2⟩
  · by_cases hBA : B = A
    · rw [hBA, hs] at hB'; cases hB'
    · have := (c.slaves B hBA).1
      rw [hB.master] at this; cases this

theorem SoloAt.soon {n} {net : FakeNet n} {A : Fin n} {t s₀ cur L h}
    (c : SoloAt net A t s₀ cur L h) (hn : n ≤ 297) (ht : t < 2 ^ 32) : t + 1 ≤ L + 5000 := by
  have hb := c.beat
  have := eff_ge (t := t) (x := (net.node A).timers.heartbeat) ht
  rcases c.heart with hm | ⟨h1, _, _, q, _, hM, ⟨hs, hr⟩ | ⟨_, _, h2⟩⟩
  · unfold Missed at hm; omega
  · obtain ⟨q', _, hx, _⟩ := c.busy hs
    have := hr _ hx
    omega
  · omega

/-- The step of the master's timers, when the last heartbeat may have been lost. -/
theorem SoloAt.step {n} {net net' : FakeNet n} {A : Fin n} {t s₀ cur L h}
    (c : SoloAt net A t s₀ cur L h) (hn : n ≤ 297)
    (ht : net.now.toNat = t + 1) (hw : net.now.toNat + 255000 < 2 ^ 32)
    (hI : Idle2 net.now (net.node A) (net'.node A) (own net net' A))
    (hm : Missed (n + 3) h L (eff t (net.node A).timers.changeEffect)
      (eff t (net.node A).timers.broadcastEffect)) :
    ∃ h', h' ≤ t + 1 ∧ eff (t + 1) (net'.node A).timers.heartbeat = h' + 1000 ∧
      (Missed (n + 3) h' L (eff (t + 1) (net'.node A).timers.changeEffect)
          (eff (t + 1) (net'.node A).timers.broadcastEffect) ∨
        (h' = t + 1 ∧ h' ≤ L + 4004 ∧
          h' + (n + 3) ≤ eff (t + 1) (net'.node A).timers.broadcastEffect ∧
          h' + (n + 3) ≤ eff (t + 1) (net'.node A).timers.changeEffect ∧
          ∃ q : Packet, own net net' A = [q] ∧ q.type = .heartbeat)) := by
  have f := hI.shoots c.master ht hw
  have hge := eff_ge (t := t) (x := (net.node A).timers.heartbeat) (by omega)
  have hh := c.past
  have hL := c.heard
  rw [c.beat] at f hge
  by_cases hlt : t < h + 1000
  · obtain ⟨h1, h2⟩ := f.missed (by omega) hL hh hlt hm
    exact ⟨h, by omega, h1, .inl h2⟩
  · obtain ⟨h1, h2⟩ := f.heartbeat (by omega) hL (by omega) hm
    refine ⟨t + 1, Nat.le_refl _, h1, ?_⟩
    rcases h2 with h2 | ⟨h2, h3, h4, h5⟩
    · exact .inl h2
    · exact .inr ⟨rfl, h2, h3, h4, h5⟩

/-- Nothing new is heard. -/
theorem SoloAt.known {n} {net net' : FakeNet n} {A : Fin n} {t s₀ cur L h}
    (c : SoloAt net A t s₀ cur L h) (hn : n ≤ 297) (hex : ∃ j : Fin n, j ≠ A)
    (r : Round net net' fun _ => net.air) (f : Fresh net net') (ha : net'.Able)
    (ht : net.now.toNat = t + 1) (hw : net.now.toNat + 255000 < 2 ^ 32)
    (hk : ∀ q ∈ net.packet, q.id ∈ cur ∧ rel (fun i => (net.radio i).sent) q.id + t ≤ s₀ + n)
    (hc : net.packet = none → cur = none) : Solo net' A (t + 1) := by
  obtain ⟨hI, hW, hcase, hcl⟩ := c.clean.known (by omega) r f ha ht hw hk hc
  have hsoon := c.soon hn (by omega)
  have hsl : ∀ i, i ≠ A → net'.node i = net.node i ∧ own net net' i = [] := fun i hi =>
    (hI i).slave (c.slaves i hi).1 (by have := (c.slaves i hi).2; omega)
  have slaves' : ∀ i, i ≠ A → (net'.node i).state = .slave ∧
      L + 5000 ≤ (net'.node i).timers.heartbeat.toNat := fun i hi => by
    rw [(hsl i hi).1]; exact c.slaves i hi
  have master' := (hI A).states.1 c.master
  have hL := c.heard
  rcases c.heart with hm | ⟨h1, h2, h3, q, hq, hM, ⟨hs, hr⟩ | ⟨hp, _, _⟩⟩
  · obtain ⟨h', k1, k2, k3⟩ := c.step hn ht hw (hI A) hm
    refine ⟨_, cur, L, h', hcl, master', slaves', by omega, k2, k1, ?_⟩
    rcases k3 with k3 | ⟨rfl, k4, k5, k6, q, k7, k8⟩
    · exact .inl k3
    · refine .inr ⟨k4, k5, k6, q, k8, ?_⟩
      have hWA : Waiting net net' A = some q := by rw [hW A, k7]; rfl
      have hM : Mine net' A q := by
        rcases hcase A q hWA with ⟨e, _⟩ | ⟨e, _⟩ | ⟨_, e⟩
        · rw [k7] at e; cases e
        · rw [k7] at e; cases e
        · exact e
      refine ⟨hM, ?_⟩
      rcases taken_cases r with ⟨_, _, e⟩ | ⟨k, p, e1, e2, e3, e4⟩
      · rw [e A] at hWA; cases hWA
      · by_cases hkA : A = k
        · subst hkA
          rw [e2] at hWA; cases hWA
          exact .inr ⟨e1, e3, by omega⟩
        · refine .inl ⟨by rw [e4 A hkA]; exact hWA, fun x _ => ?_⟩
          have := rel_le (fun i => (net'.radio i).sent) x
          omega
  · obtain ⟨q', hp, hx, _⟩ := c.busy hs
    have hlt := hr _ hx
    have sh := (hI A).shoots c.master ht hw
    rw [c.beat] at sh
    generalize hm : own net net' A = m at sh
    generalize hH' : eff (t + 1) (net'.node A).timers.heartbeat = H' at sh
    generalize hc' : eff (t + 1) (net'.node A).timers.changeEffect = c' at sh
    generalize hb' : eff (t + 1) (net'.node A).timers.broadcastEffect = b' at sh
    cases sh with
    | beat | change | «repeat» | beatChange | beatRepeat | changeRepeat => omega
    | none =>
      have hWA : Waiting net net' A = some q := by rw [hW A, hm, hs]; rfl
      have hM' : Mine net' A q := by
        rcases hcase A q hWA with ⟨_, _, e⟩ | ⟨_, _, _, e⟩ | ⟨e, _⟩
        · exact absurd hM (c.clean.notMine hex e)
        · exact e
        · rw [hm] at e; cases e
      refine ⟨_, cur, L, h, hcl, master', slaves', by omega, hH', by have := c.past; omega, ?_⟩
      refine .inr ⟨h1, by rw [hb']; exact h2, by rw [hc']; exact h3, q, hq, hM', ?_⟩
      rcases taken_cases r with ⟨_, _, e⟩ | ⟨k, p, e1, e2, e3, e4⟩
      · rw [e A] at hWA; cases hWA
      · by_cases hkA : A = k
        · subst hkA
          rw [e2] at hWA; cases hWA
          exact .inr ⟨e1, e3, by omega⟩
        · refine .inl ⟨by rw [e4 A hkA]; exact hWA, fun x hx' => ?_⟩
          have hWs : ∀ i, Waiting net net' i = (net.radio i).sent := by
            intro i
            by_cases hi : i = A
            · rw [hi, hW A, hm]; rfl
            · rw [hW i, (hsl i hi).2]; rfl
          have hpx : p.id = x := by
            rcases hcase k p e2 with ⟨_, _, e⟩ | ⟨_, _, _, e⟩ | ⟨e, _⟩
            · rw [Option.mem_def] at e hx'
              rw [hx'] at e; cases e; rfl
            · have := e.master
              rw [(slaves' k (Ne.symm hkA)).1] at this; cases this
            · rw [(hsl k (Ne.symm hkA)).2] at e; cases e
          have hd := rel_drop (f := fun i => (net.radio i).sent)
            (g := fun i => (net'.radio i).sent) (x := x) (k := k) (q := p)
            (by rw [← hWs k]; exact e2) hpx e3 (fun i hi => by rw [e4 i hi]; exact hWs i)
          have := hr _ hx'
          omega
  · exact absurd hM (c.clean.notMine hex (hk q hp).1)

/-- The others hear the master. -/
theorem SoloAt.new {n} {net net' : FakeNet n} {A : Fin n} {t s₀ cur L h}
    (c : SoloAt net A t s₀ cur L h) (hn : n ≤ 297)
    (r : Round net net' fun _ => net.air) (f : Fresh net net') (ha : net'.Able)
    (ht : net.now.toNat = t + 1) (hw : net.now.toNat + 255000 < 2 ^ 32)
    {q : Packet} (hq : net.packet = some q) (hM : Mine net A q)
    (hA : (net.radio A).sent = none) : Solo net' A (t + 1) := by
  obtain ⟨p, pid, pty, hI, hT, hWA, hW, hcase, hcl⟩ := c.clean.new r f ha ht hw hq hM hA
  have hsoon := c.soon hn (by omega)
  have hL := c.heard
  have hs := fun i hi => (hT i hi).slave (c.slaves i hi).1 (by have := (c.slaves i hi).2; omega)
  have master' := hI.states.1 c.master
  by_cases hty : q.type = .heartbeat
  · have sh := hI.shoots c.master ht hw
    rw [c.beat] at sh
    obtain ⟨h', k1, k2⟩ := sh.next c.past
    refine ⟨_, _, t + 1, h', hcl, master', fun i hi => ⟨(hs i hi).1, ?_⟩, Nat.le_refl _, k2, k1,
      .inl (.inl k1)⟩
    rcases (hs i hi).2.2 with e | ⟨_, e⟩
    · omega
    · exact absurd (pty.trans hty) e
  · have slaves' : ∀ i, i ≠ A → (net'.node i).state = .slave ∧
        L + 5000 ≤ (net'.node i).timers.heartbeat.toNat := fun i hi => by
      refine ⟨(hs i hi).1, ?_⟩
      rcases (hs i hi).2.2 with e | ⟨e, _⟩
      · omega
      · rw [e]; exact (c.slaves i hi).2
    rcases c.heart with hm | ⟨_, _, _, q', hq', hM', ⟨hs', _⟩ | ⟨hp, _, _⟩⟩
    · obtain ⟨h', k1, k2, k3⟩ := c.step hn ht hw hI hm
      refine ⟨_, _, L, h', hcl, master', slaves', by omega, k2, k1, ?_⟩
      rcases k3 with k3 | ⟨rfl, k4, k5, k6, q, k7, k8⟩
      · exact .inl k3
      · refine .inr ⟨k4, k5, k6, q, k8, ?_⟩
        have hWq : Waiting net net' A = some q := by rw [hWA, k7]; rfl
        have hM : Mine net' A q := by
          rcases hcase A q hWq with ⟨_, _, e⟩ | ⟨_, e⟩
          · exact absurd rfl e
          · exact e
        refine ⟨hM, ?_⟩
        rcases taken_cases r with ⟨_, _, e⟩ | ⟨k, p, e1, e2, e3, e4⟩
        · rw [e A] at hWq; cases hWq
        · by_cases hkA : A = k
          · subst hkA
            rw [e2] at hWq; cases hWq
            exact .inr ⟨e1, e3, by omega⟩
          · refine .inl ⟨by rw [e4 A hkA]; exact hWq, fun x _ => ?_⟩
            have := rel_le (fun i => (net'.radio i).sent) x
            omega
    · rw [hA] at hs'; cases hs'
    · rw [hq] at hp; cases hp
      exact absurd hq' hty

/-- `A` remains the only master. -/
theorem Solo.tick {n} {net net' : FakeNet n} {A : Fin n} {t} (c : Solo net A t) (hn : n ≤ 297)
    (hex : ∃ j : Fin n, j ≠ A) (r : Round net net' fun _ => net.air) (f : Fresh net net')
    (ha : net'.Able) (ht : net.now.toNat = t + 1) (hw : net.now.toNat + 255000 < 2 ^ 32) :
    Solo net' A (t + 1) := by
  obtain ⟨s₀, cur, L, h, c⟩ := c
  rcases c.clean.air with ⟨h1, h2⟩ | ⟨q, hp, ⟨hq, hq'⟩ | ⟨B, hB, hs⟩⟩
  · have c' : SoloAt net A t t none L h :=
      ⟨(c.clean.rest h1).1, c.master, c.slaves, c.heard, c.beat, c.past, by
        rcases c.heart with hm | ⟨k1, k2, k3, q, k4, k5, ⟨k6, _⟩ | ⟨k6, _⟩⟩
        · exact .inl hm
        · rw [h2 A] at k6; cases k6
        · rw [h1] at k6; cases k6⟩
    exact c'.known hn hex r f ha ht hw (fun q hq => by rw [h1] at hq; cases hq) fun _ => rfl
  · exact c.known hn hex r f ha ht hw
      (fun p hp' => by rw [hp] at hp'; cases hp'; exact ⟨hq, hq'⟩)
      (fun e => by rw [hp] at e; cases e)
  · by_cases hBA : B = A
    · subst hBA
      exact c.new hn r f ha ht hw hp hB hs
    · have := (c.slaves B hBA).1
      rw [hB.master] at this; cases this

end FakeNet
end Firefly
