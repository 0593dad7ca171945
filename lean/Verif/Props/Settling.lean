import Verif.Lemmas.Settling
import Verif.Props.Timeline

/-! # From power-on or the loss of a master to a settled network (C144) -/

namespace Firefly.Props
open Spec

section

variable {n : Nat} {nbrs : Fin n → List (Fin n)} {on : Fin n → Nat} {boot : Fin n → U32}
  {net₀ : HwNet n} {net : Nat → HwNet n} {T : Nat → Nat} {N : Nat}

theorem happened {m : Fin n} (t : Timeline nbrs on boot net₀ net T N) {e : Entry}
    (he : e ∈ since net₀ (net N) m) {k : Nat} (hk : k ≤ N) (hlt : wall on m e < T k) :
    e ∈ since net₀ (net k) m := by
  have mono : ∀ d, k + d ≤ N → T k ≤ T (k + d) := by
    intro d
    induction d with
    | zero => exact fun _ => Nat.le_refl _
    | succ d ih => exact fun h => Nat.le_trans (ih (by omega)) (t.order (k + d) (by omega))
  have down : ∀ d, k + d ≤ N → e ∈ since net₀ (net (k + d)) m → e ∈ since net₀ (net k) m := by
    intro d
    induction d with
    | zero => exact fun _ h => h
    | succ d ih =>
      intro h he
      rcases Timeline.entry t (k := k + d) (by omega) he with h' | h'
      · exact ih (by omega) h'
      · have := mono (d + 1) h
        rw [show k + d + 1 = k + (d + 1) by omega] at h'
        omega
  have := down (N - k) (by omega)
  rw [show k + (N - k) = N by omega] at this
  exact this he

/-- C144.  No master is running.  Device `m` turns master, nobody else does so in the next `G` ms, and
by then everybody has heard of it.  If `m` finds time for its own business once in `D` ms, and of any
four of its heartbeats every other device hears at least one within `L` ms, then nobody else ever turns
master, and `m` stays master. -/
theorem first_master_stays {m : Fin n} {D L G w : Nat} (t : Timeline nbrs on boot net₀ net T N)
    (hself : m ∉ nbrs m) (hnone : HwNet.Masterless net₀ (net N))
    (first : FirstMaster m on net₀ (net N) w G) (at_ : AttentiveFrom w m on net₀ net T N D)
    (known : ∀ i, i ≠ m → Introduced i on boot net₀ (net N) w G)
    (touch : ∀ i, i ≠ m → InTouch m i on boot net₀ (net N) L) (hDL : 4 * (1001 + D) + L ≤ 5000) :
    (∀ i, i ≠ m → ∀ e ∈ since net₀ (net N) i, e.post.getCurrentState = .slave) ∧
    ∀ k ≤ N, w < T k → ((net k).node m).getCurrentState = .master := by
  have hno := fun k hk => Timeline.nobody_else t hself hnone first at_ known touch hDL (k := k) hk
  obtain ⟨p, hp, hpp, hpw⟩ := first.turned
  refine ⟨fun i hi e he => ?_, fun k hk hw => ?_⟩
  · rcases hnone i with h | h
    · exact ((slaves_stay ((Timeline.since_at t (Nat.le_refl N)).exec i) h
        (hno N (Nat.le_refl N) i hi)).2 e he).2
    · rw [h] at he; cases he
  · have hnk : HwNet.Masterless net₀ (net k) := by
      intro j
      refine (hnone j).imp_right fun h => ?_
      obtain ⟨g, hg⟩ := Timeline.grows_to t j hk
      rw [h] at hg
      exact (List.append_eq_nil_iff.1 hg.symm).2
    exact masters_stay ((Timeline.since_at t hk).exec m) ⟨p, happened t hp hk (by omega), hpp⟩
      (Timeline.not_demoted t hself hk hnk (hno k hk))

/-- C144, from power-on: if all devices are slaves at first, `m` is the only master from `w` on. -/
theorem cold_start_settles {m : Fin n} {D L G w : Nat} (t : Timeline nbrs on boot net₀ net T N)
    (hself : m ∉ nbrs m) (hcold : ∀ i, (net₀.node i).getCurrentState = .slave)
    (first : FirstMaster m on net₀ (net N) w G) (at_ : AttentiveFrom w m on net₀ net T N D)
    (known : ∀ i, i ≠ m → Introduced i on boot net₀ (net N) w G)
    (touch : ∀ i, i ≠ m → InTouch m i on boot net₀ (net N) L) (hDL : 4 * (1001 + D) + L ≤ 5000)
    {k : Nat} (hk : k ≤ N) (hw : w < T k) : HwNet.SoleMaster (net k) m := by
  have hnone : HwNet.Masterless net₀ (net N) := fun j => .inl (hcold j)
  have hm := (first_master_stays t hself hnone first at_ known touch hDL).2 k hk hw
  intro i
  constructor
  · intro h
    apply Classical.byContradiction
    intro hi
    have := (slaves_stay ((Timeline.since_at t hk).exec i) (hcold i)
      (Timeline.nobody_else t hself hnone first at_ known touch hDL hk i hi)).1
    rw [h] at this; cases this
  · rintro rfl; exact hm

end

namespace HwDemo

/-- Three devices are switched on at 0.  The middle one turns master at 8000; both others hear of it,
then miss its heartbeats at 9200, 10400 and 11600 ms and hear the one at 12800. -/
def script₅ : Script := fun k =>
  if k = 0 then (1, 8000, 0)
  else if k = 1 then (0, 8050, 7)
  else if k = 2 then (2, 8060, 7)
  else if k < 26 then (1, BitVec.ofNat 32 (8200 + 200 * (k - 3)), 0)
  else if k = 26 then (1, 12800, 0)
  else if k = 27 then (0, 12850, 7)
  else if k = 28 then (2, 12860, 7)
  else if k = 29 then (1, 13000, 0)
  else if k = 30 then (0, 13100, 0)
  else (2, 13150, 0)

/-- The first device hears nothing of the new master and turns master itself. -/
def script₆ : Script := fun k =>
  if k = 0 then (1, 8000, 0)
  else if k = 1 then (2, 8060, 7)
  else (0, 8100, 0)

def fresh (s : Script) : Nat → Option (HwNet 3)
  | 0 => some net₀
  | k + 1 => (fresh s k).bind fun net => does net (s k)

def freshNet (s : Script) (k : Nat) : HwNet 3 := (fresh s k).getD net₀

def freshTime (s : Script) : Nat → Nat
  | 0 => 0
  | k + 1 => (s k).2.1.toNat

theorem fresh_timeline {s : Script} {N : Nat} (h : (fresh s N).isSome = true)
    (ho : ∀ k < N, freshTime s k ≤ freshTime s (k + 1))
    (hc : ∀ i, clockOk (((freshNet s N).hist i).map Entry.time ++ [0]) = true) :
    Timeline nbrs (fun _ => 0) (fun _ => 0) net₀ (freshNet s) (freshTime s) N := by
  have all : ∀ k ≤ N, fresh s k = some (freshNet s k) := by
    have down : ∀ d k, k + d = N → (fresh s k).isSome = true := by
      intro d
      induction d with
      | zero => intro k hk; rw [show k = N by omega]; exact h
      | succ d ih =>
        intro k hk
        have := ih (k + 1) (by omega)
        unfold fresh at this
        cases e : fresh s k with
        | none => rw [e] at this; cases this
        | some net => rfl
    exact fun k hk => some_getD (down (N - k) k (by omega))
  have step : ∀ k < N, does (freshNet s k) (s k) = some (freshNet s (k + 1)) := by
    intro k hk
    have := all (k + 1) hk
    unfold fresh at this
    rw [all k (by omega)] at this
    exact this
  refine ⟨reach₀, rfl, fun k hk => (does_step (step k hk)).1, ho, fun k hk i e he => ?_,
    fun k => ⟨_, _, _, .nil⟩, fun i => clock_of_check (hc i)⟩
  have := (does_step (step k hk)).2 i e he
  unfold wall
  rw [this]
  exact Nat.zero_add _

/-- Something holds of every step and what happened before. -/
def atSplits (f : Entry → List Entry → Bool) : List Entry → Bool
  | [] => true
  | e :: h => f e h && atSplits f h

theorem atSplits_sound {f : Entry → List Entry → Bool} {l h₁ e h₂} (h : atSplits f l = true)
    (hl : l = h₁ ++ e :: h₂) : f e h₂ = true := by
  subst hl
  induction h₁ with
  | nil => exact (Bool.and_eq_true_iff.1 h).1
  | cons a h₁ ih => exact ih (Bool.and_eq_true_iff.1 h).2

def heardFrom (w : Nat) (h : List Entry) : Bool :=
  h.any fun e => decide (Entry.HeardMaster e) && decide (w ≤ (Entry.time e).toNat)

theorem heardFrom_sound {w h boot} {g : List Entry} (hh : heardFrom w h = true) :
    ∃ t, Sign boot (h ++ g) t ∧ w ≤ t.toNat := by
  obtain ⟨e, he, h1⟩ := List.any_eq_true.1 hh
  rw [Bool.and_eq_true, decide_eq_true_eq, decide_eq_true_eq] at h1
  exact ⟨Entry.time e, .inr ⟨e, List.mem_append_left _ he, rfl, .inl h1.1⟩, h1.2⟩

theorem idle_iff {e : Entry} : idle e = true ↔ Entry.IsTick e ∧ Entry.heard e = none := by
  obtain ⟨pre, op, post⟩ := e
  unfold idle Entry.IsTick
  cases op <;> simp

end HwDemo

open HwDemo in
/-- A concrete case of C144: three devices from power-on. -/
theorem cold_start_demo :
    Timeline nbrs (fun _ => 0) (fun _ => 0) net₀ (freshNet script₅) (freshTime script₅) 32 ∧
    (∀ i, (net₀.node i).getCurrentState = .slave) ∧
    FirstMaster 1 (fun _ => 0) net₀ (freshNet script₅ 32) 8000 100 ∧
    AttentiveFrom 8000 1 (fun _ => 0) net₀ (freshNet script₅) (freshTime script₅) 32 200 ∧
    (∀ i, i ≠ 1 → Introduced i (fun _ => 0) (fun _ => 0) net₀ (freshNet script₅ 32) 8000 100 ∧
      InTouch 1 i (fun _ => 0) (fun _ => 0) net₀ (freshNet script₅ 32) 150) ∧
    freshTime script₅ 32 = 13150 := by
  have beats : ∀ e ∈ since net₀ (freshNet script₅ 32) 1, own e = true →
      (Entry.time e).toNat ∈ [8000, 9200, 10400, 11600, 12800] := by decide +kernel
  have gaps : ∀ k < 33, gapless 200 8000 (freshTime script₅ k)
      (((since net₀ (freshNet script₅ k) 1).filter idle).map fun e => (Entry.time e).toNat) = true := by
    decide +kernel
  have intro_ : ∀ i : Fin 3, i ≠ 1 → atSplits (fun e h => decide ((Entry.time e).toNat ≤ 8100) ||
      heardFrom 8000 h) (since net₀ (freshNet script₅ 32) i) = true := by decide +kernel
  have touch : ∀ i : Fin 3, i ≠ 1 → atSplits (fun e h => decide ((Entry.time e).toNat ≤ 11750) ||
      decide ((Entry.time e).toNat ≤ 12950) && heardFrom 8000 h || heardFrom 9200 h)
      (since net₀ (freshNet script₅ 32) i) = true := by decide +kernel
  have turned : ∃ a ∈ since net₀ (freshNet script₅ 32) 1, a.pre.getCurrentState = .slave ∧
      a.post.getCurrentState = .master ∧ (Entry.time a).toNat = 8000 := by decide +kernel
  have never : ∀ i : Fin 3, i ≠ 1 → ∀ e ∈ since net₀ (freshNet script₅ 32) i,
      e.post.getCurrentState = .slave := by decide +kernel
  refine ⟨fresh_timeline (by decide +kernel) (by decide +kernel) (by decide +kernel),
    by decide +kernel, ⟨?_, ?_⟩, ?_, fun i hi => ⟨?_, ?_⟩, rfl⟩
  · obtain ⟨a, ha, h1, h2, h3⟩ := turned
    exact ⟨a, ha, ⟨h1, h2⟩, by rw [wall_zero, h3]⟩
  · intro i hi e he hp
    have := never i hi e he
    rw [hp.2] at this; cases this
  · intro k hk x h0 hx
    obtain ⟨t, ht, h1, h2⟩ := gapless_sound (gaps k (by omega)) h0 hx
    rw [List.mem_map] at ht
    obtain ⟨e, he, rfl⟩ := ht
    rw [List.mem_filter] at he
    obtain ⟨h3, h4⟩ := idle_iff.1 he.2
    exact ⟨e, he.1, h3, h4, by simp only [wall_zero]; omega, by simp only [wall_zero]; omega⟩
  · intro h₁ e h₂ hsp hlt
    have := atSplits_sound (intro_ i hi) hsp
    simp only [wall_zero] at hlt
    rw [Bool.or_eq_true, decide_eq_true_eq] at this
    rcases this with h | h
    · omega
    · obtain ⟨t, h1, h2⟩ := heardFrom_sound (boot := 0) (g := net₀.hist i) h
      exact ⟨t, h1, by omega⟩
  · intro h₁ e h₂ hsp a b c d ha hb hc hd oa ob oc od l1 l2 l3 l4
    have ea := beats a ha (own_iff.2 oa)
    have eb := beats b hb (own_iff.2 ob)
    have ec := beats c hc (own_iff.2 oc)
    have ed := beats d hd (own_iff.2 od)
    simp only [List.mem_cons, List.not_mem_nil, or_false] at ea eb ec ed
    simp only [wall_zero] at l1 l2 l3 l4 ⊢
    have := atSplits_sound (touch i hi) hsp
    simp only [Bool.or_eq_true, Bool.and_eq_true, decide_eq_true_eq] at this
    rcases this with (h | ⟨h, h'⟩) | h'
    · omega
    · obtain ⟨t, h1, h2⟩ := heardFrom_sound (boot := 0) (g := net₀.hist i) h'
      exact ⟨t, h1, by omega⟩
    · obtain ⟨t, h1, h2⟩ := heardFrom_sound (boot := 0) (g := net₀.hist i) h'
      exact ⟨t, h1, by omega⟩

open HwDemo in
/-- In this case the theorem applies to every moment from 8050 on. -/
example {k : Nat} (hk : k ≤ 32) (hw : 8000 < freshTime script₅ k) :
    HwNet.SoleMaster (freshNet script₅ k) 1 := by
  obtain ⟨t, cold, first, at_, h, _⟩ := cold_start_demo
  exact cold_start_settles t (by decide) cold first at_ (fun i hi => (h i hi).1)
    (fun i hi => (h i hi).2) (by decide) hk hw

open HwDemo in
/-- C144, why the others must hear of it in time: if one does not, there are two masters. -/
theorem unheard_first_master :
    Timeline nbrs (fun _ => 0) (fun _ => 0) net₀ (freshNet script₆) (freshTime script₆) 3 ∧
    (∃ a ∈ since net₀ (freshNet script₆ 3) 1, Entry.Promoted a ∧ wall (n := 3) (fun _ => 0) 1 a = 8000) ∧
    ((freshNet script₆ 3).node 0).getCurrentState = .master ∧
    ((freshNet script₆ 3).node 1).getCurrentState = .master := by
  have turned : ∃ a ∈ since net₀ (freshNet script₆ 3) 1, a.pre.getCurrentState = .slave ∧
      a.post.getCurrentState = .master ∧ (Entry.time a).toNat = 8000 := by decide +kernel
  refine ⟨fresh_timeline (by decide +kernel) (by decide +kernel) (by decide +kernel), ?_,
    by decide +kernel, by decide +kernel⟩
  obtain ⟨a, ha, h1, h2, h3⟩ := turned
  exact ⟨a, ha, ⟨h1, h2⟩, by rw [wall_zero, h3]⟩

end Firefly.Props
