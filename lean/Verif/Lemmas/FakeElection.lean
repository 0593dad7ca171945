import Verif.Lemmas.FakeTick

/-! # Elections in the network of the integration tests -/

namespace Firefly
open Spec

namespace FakeNet

/-! ### Counting the packets that wait -/

/-- In how many radios other than that of `A` a packet waits. -/
def waits {n} (f : Fin n → Option Packet) (A : Fin n) : Nat :=
  (List.finRange n).countP fun i => decide (i ≠ A) && (f i).isSome

theorem countP_drop {α} [DecidableEq α] {l : List α} (nd : l.Nodup) {p q : α → Bool} {k : α}
    (hk : k ∈ l) (hp : p k = true) (hq : q k = false) (h : ∀ i, i ≠ k → q i = p i) :
    l.countP q + 1 = l.countP p := by
  induction l with
  | nil => cases hk
  | cons a l ih =>
    obtain ⟨ha, nd⟩ := List.nodup_cons.1 nd
    rcases List.mem_cons.1 hk with rfl | hk
    · rw [List.countP_cons_of_neg (by simp [hq]), List.countP_cons_of_pos hp]
      congr 1
      apply List.countP_congr
      intro i hi
      rw [h i (fun e => ha (e ▸ hi))]
    · have hne : a ≠ k := fun e => ha (e ▸ hk)
      have := ih nd hk
      simp only [List.countP_cons, h a hne]
      omega

theorem waits_lt {n} (f : Fin n → Option Packet) (A : Fin n) : waits f A + 1 ≤ n := by
  have h := countP_drop (List.nodup_finRange n) (List.mem_finRange A)
    (p := fun i => decide (i = A) || (f i).isSome) (q := fun i => decide (i ≠ A) && (f i).isSome)
    (by simp) (by simp) (fun i hi => by simp [hi])
  have h2 := List.countP_le_length (p := fun i => decide (i = A) || (f i).isSome)
    (l := List.finRange n)
  rw [List.length_finRange] at h2
  unfold waits
  omega

theorem waits_congr {n} {f g : Fin n → Option Packet} {A : Fin n}
    (h : ∀ i, i ≠ A → (f i).isSome = (g i).isSome) : waits f A = waits g A := by
  unfold waits
  apply List.countP_congr
  intro i _
  by_cases hi : i = A
  · simp [hi]
  · simp [h i hi]

theorem waits_zero {n} {f : Fin n → Option Packet} {A : Fin n} (h : ∀ i, f i = none) :
    waits f A = 0 := by
  unfold waits
  rw [List.countP_eq_zero]
  intro i _
  simp [h i]

theorem waits_pos {n} {f : Fin n → Option Packet} {A k : Fin n} (hk : k ≠ A)
    (h : (f k).isSome = true) : 0 < waits f A := by
  unfold waits
  rw [List.countP_pos_iff]
  exact ⟨k, List.mem_finRange k, by simp [hk, h]⟩

theorem waits_taken {n} {f g : Fin n → Option Packet} {A k : Fin n} (hk : k ≠ A)
    (h : (f k).isSome = true) (hg : ∀ i, g i = if i = k then none else f i) :
    waits g A + 1 = waits f A := by
  unfold waits
  apply countP_drop (List.nodup_finRange n) (List.mem_finRange k)
  · simp [hk, h]
  · simp [hg]
  · intro i hi
    simp [hg, hi]

/-- How much there is to be distributed: `v` is the weight of the packet the devices hear next. -/
def load {n} (net : FakeNet n) (A : Fin n) (v : Nat) : Nat :=
  waits (fun i => (net.radio i).sent) A + v + if (net.radio A).sent.isSome then n else 0

/-- After a `Tick`, the load is what waits before the network takes a packet. -/
theorem load_taken {n} {net net' : FakeNet n} {rx} (r : Round net net' rx) (A : Fin n) :
    ∃ v, net'.load A v = waits (Waiting net net') A +
        (if (Waiting net net' A).isSome then n else 0) ∧
      ((net'.packet = none ∧ (∀ i, (net'.radio i).sent = none) ∧ ∀ i, Waiting net net' i = none) ∨
       ∃ k p, net'.packet = some p ∧ Waiting net net' k = some p ∧ v = (if k = A then n else 1) ∧
         ∀ i, (net'.radio i).sent = if i = k then none else Waiting net net' i) := by
  rcases r.taken with ⟨h1, h2, h3⟩ | ⟨k, p, h1, h2, h3, h4⟩
  · refine ⟨0, ?_, .inl ⟨h2, h3, h1⟩⟩
    unfold load
    rw [waits_zero h1, waits_zero h3, h3, h1]
  · refine ⟨if k = A then n else 1, ?_, .inr ⟨k, p, h3, h2, rfl, h4⟩⟩
    unfold load
    by_cases hk : k = A
    · subst hk
      rw [if_pos rfl, h4, if_pos rfl, h2]
      rw [waits_congr (g := Waiting net net')]
      · simp
      · intro i hi
        rw [h4, if_neg hi]
    · rw [if_neg hk, h4, if_neg (Ne.symm hk),
        ← waits_taken (f := Waiting net net') (g := fun i => (net'.radio i).sent) hk (by rw [h2]; rfl)
          h4]

/-! ### One `Tick` without losses -/

/-- What the devices hear in a `Tick` without losses. -/
def air {n} (net : FakeNet n) : Option Packet := net.packet.map FakeRadio.clearTail

theorem staged_air {n} {net : FakeNet n} (h : net.loss = 0) (draws i) :
    net.staged draws i = net.air := by
  unfold staged air heard
  simp [h]

theorem mem_air {n} {net : FakeNet n} {p : Packet} (h : p ∈ net.air) :
    ∃ q ∈ net.packet, p.id = q.id ∧ p.type = q.type := by
  unfold air at h
  obtain ⟨q, hq, rfl⟩ := Option.map_eq_some_iff.1 h
  exact ⟨q, hq, rfl, rfl⟩

theorem air_some {n} {net : FakeNet n} {q : Packet} (h : net.packet = some q) :
    ∃ p, net.air = some p ∧ p.id = q.id ∧ p.type = q.type := by
  unfold air
  rw [h]
  exact ⟨_, rfl, rfl, rfl⟩

theorem waiting_eq {n} {net net' : FakeNet n} {i l}
    (h : (net'.node i).sent = (net.node i).sent ++ l) :
    Waiting net net' i = l.getLast?.or (net.radio i).sent := by
  unfold Waiting
  rw [h, List.drop_left]

theorem waiting_same {n} {net net' : FakeNet n} {i}
    (h : (net'.node i).sent = (net.node i).sent) : Waiting net net' i = (net.radio i).sent := by
  rw [waiting_eq (l := []) (by rw [h, List.append_nil])]
  rfl

theorem own_known {n} {net net' : FakeNet n} {i l}
    (h : (net'.node i).sent = (net.node i).sent ++ l)
    (hk : ∀ p ∈ net.packet, p.id ∈ memory (net.node i)) : own net net' i = l := by
  unfold own
  rw [h, List.drop_left, if_neg]
  · rfl
  · rintro ⟨p, hp, hn⟩; exact hn (hk p hp)

theorem own_unknown {n} {net net' : FakeNet n} {i l p}
    (h : (net'.node i).sent = (net.node i).sent ++ l) (hp : net.packet = some p)
    (hk : p.id ∉ memory (net.node i)) : own net net' i = l.drop 1 := by
  unfold own
  rw [h, List.drop_left, if_pos ⟨p, hp, hk⟩]

theorem tick_sound {n} {net net' : FakeNet n} {rx} (r : Round net net' rx)
    (h : ∀ i, (net.node i).Sound) (i : Fin n) : (net'.node i).Sound := by
  obtain ⟨_, _, _, _, k⟩ := (h i).tick (r.ticks i)
  exact k

end FakeNet
end Firefly
