import Verif.Lemmas.Silence
import Verif.Props.Draws

/-! # One slave takes over (C160) -/

namespace Firefly.Props
open Spec Demo

section
variable {K n : Nat}

/-- **C160.** Any number of slaves that heard a heartbeat or a claim, each at its own time, and then nothing
more: if the first time-out, that of device `i`, is more than `2 * L` ms before all others, exactly device `i`
takes over. -/
theorem first_takes_over (d : Fin n → Listener) (pr : ∀ k, (d k).Proper)
    (clock : ∀ j k, (d j).time + 80000 < (d k).on + 2 ^ 32) (T₀ L : Nat)
    (hT : ∀ k, (d k).time ≤ T₀ ∧ T₀ ≤ (d k).time + 5000) (tail : Fin n → Rand) (w : Fin n → Luck K)
    (s₀ : Fin n → Node) (x : Fin n → Nat)
    (after : ∀ k, (d k).After (tail k) (w k) (s₀ k) ∧ (d k).TakesOverAfter (s₀ k) (x k))
    (i : Fin n) (first : ∀ k, k ≠ i → x i + 2 * L < x k) :
    OneTakesOver (fun k => (d k).on) T₀ L s₀ i (x i) := by
  intro h s c time
  have base : ∀ k, (s₀ k).WF ∧ (s₀ k).state = .slave ∧
      (s₀ k).timers.heartbeat.toNat + (d k).on = x k ∧ x k = (d k).time + 5000 + (w k).2.1.val % 2000 := by
    intro k
    obtain ⟨a1, a2⟩ := after k
    have e := takes_over_unique (pr k) a1 a2
    obtain ⟨t₀, h₀, run⟩ := (pr k).run
    obtain ⟨p, hp, ht⟩ := (pr k).hears
    have hs : (d k).s.state = .slave := (pr k).slave
    have wf : ({ (d k).s with rand := supply (tail k) (w k) } : Node).WF :=
      ⟨run.wf.idx, run.wf.next, run.wf.timerNone⟩
    have hd : ({ (d k).s with rand := supply (tail k) (w k) } : Node).delivered (d k).rx = some p := by
      have e : (d k).s.delivered (d k).rx = some p := hp.delivered run.wf
      exact e
    obtain ⟨s', h1, h2, h3⟩ := timeout_armed (now := BitVec.ofNat 32 ((d k).time - (d k).on)) wf hs hd ht
    have es : s' = s₀ k := by
      have e := h1.symm.trans a1
      cases e; rfl
    subst es
    refine ⟨Node.step_wf (op := .radioTick _ _) wf h1, h2, ?_, e⟩
    have e0 := (pr k).on_le
    have e1 := (pr k).clock
    have e2 := Nat.mod_lt (w k).2.1.val (show 2000 > 0 by decide)
    have hr : (supply (tail k) (w k)) 0 = (w k).2.1.val := rfl
    rw [h3, BitVec.toNat_add, BitVec.toNat_ofNat, BitVec.toNat_ofNat, e]
    simp only [hr]
    omega
  have on_le : ∀ k, (d k).on ≤ (d k).time := fun k => (pr k).on_le
  have xi := (base i).2.2.2
  have ri := Nat.mod_lt (w i).2.1.val (show 2000 > 0 by decide)
  have hTi := (hT i).2
  rcases silence_inv (on := fun k => (d k).on) (x := x) (i := i) (fun k => (base k).1) (fun k => (base k).2.1)
    (fun k => (base k).2.2.1) (by omega) (fun k => Nat.le_trans (on_le k) (hT k).1)
    (fun k => by have := on_le k; have := (base k).2.2.2; show (d k).on < x k; omega)
    (fun k => by have := clock i k; show x i + 70000 < (d k).on + 2 ^ 32; omega) first c time with b | ⟨y, p, a⟩
  · constructor
    · intro k hk
      have hk' : (s k).state = .master := hk
      rw [b.same k, (base k).2.1] at hk'
      cases hk'
    · rintro ⟨e, he, hlt⟩
      have := b.time e he
      omega
  · constructor
    · intro k hk
      refine Classical.byContradiction fun hne => ?_
      have hk' : (s k).state = .master := hk
      rw [(a.slaves k hne).1] at hk'
      cases hk'
    · intro _
      exact a.master

open Classical in
/-- **C160.** So with uniform and independent random numbers exactly one of `n` slaves takes over, except in
at most `n * (n - 1) / 2 * (4 * L + 1) / 2000` of the outcomes. -/
theorem one_takes_over_odds (hK : 2000 ∣ K) (hn : 0 < n) (d : Fin n → Listener) (pr : ∀ k, (d k).Proper)
    (clock : ∀ j k, (d j).time + 80000 < (d k).on + 2 ^ 32) (T₀ L : Nat)
    (hT : ∀ k, (d k).time ≤ T₀ ∧ T₀ ≤ (d k).time + 5000) (tail : Fin n → Rand) :
    (Finset.univ.filter fun w : Fin n → Luck K =>
      ¬ ∃ (s₀ : Fin n → Node) (i : Fin n) (x : Nat), (∀ k, (d k).After (tail k) (w k) (s₀ k)) ∧
        (d i).time + 5000 ≤ x ∧ x < (d i).time + 7000 ∧
        OneTakesOver (fun k => (d k).on) T₀ L s₀ i x).card * 4000 ≤
      n * (n - 1) * (4 * L + 1) * Fintype.card (Fin n → Luck K) := by
  have e : 4 * L + 1 = 2 * (2 * L) + 1 := by omega
  rw [e]
  refine Nat.le_trans (Nat.mul_le_mul_right _ (Finset.card_le_card ?_))
    (close_any hK (fun k => (d k).time + 5000) (2 * L))
  intro w hw
  simp only [Finset.mem_filter, Finset.mem_univ, true_and] at hw ⊢
  refine Classical.byContradiction fun hno => hw ?_
  choose s₀ h₀ using fun k => after_takes_over (pr k) (tail k) (w k)
  obtain ⟨i, _, hi⟩ := Finset.exists_min_image (Finset.univ : Finset (Fin n))
    (fun k => (d k).time + 5000 + (w k).2.1.val % 2000) ⟨⟨0, hn⟩, Finset.mem_univ _⟩
  have ri := Nat.mod_lt (w i).2.1.val (show 2000 > 0 by decide)
  refine ⟨s₀, i, (d i).time + 5000 + (w i).2.1.val % 2000, fun k => (h₀ k).1, by omega, by omega, ?_⟩
  refine first_takes_over d pr clock T₀ L hT tail w s₀ (fun k => (d k).time + 5000 + (w k).2.1.val % 2000) h₀ i ?_
  intro k hk
  refine Nat.lt_of_not_le fun hle => hno ⟨k, i, hk, ?_, ?_⟩
  · exact hle
  · have := hi k (Finset.mem_univ _)
    exact Nat.le_trans this (Nat.le_add_right _ _)

end

/-! ### A concrete network -/

/-- Device `i` runs at `t` and reads the `k`-th of the packets transmitted so far (newest first). -/
def playStep {n : Nat} (on : Fin n → Nat) (T₀ L : Nat) (c : List (Happening n) × (Fin n → Node))
    (a : Fin n × Nat × Option Nat) : Option (List (Happening n) × (Fin n → Node)) :=
  let rx := a.2.2.bind fun k => (c.1.flatMap fun e => Entry.transmitted e.entry)[k]?
  if T₀ ≤ a.2.1 ∧ (∀ e ∈ c.1, e.time ≤ a.2.1) ∧
      (∀ k, a.2.1 ≤ T₀ + L ∨ ∃ e ∈ c.1, e.who = k ∧ a.2.1 ≤ e.time + L) ∧
      (∀ e ∈ c.1, (e.entry.pre.getCurrentState = .slave ∧ e.entry.post.getCurrentState = .master) →
        ∀ p ∈ Entry.transmitted e.entry, e.time + L < a.2.1 →
          ∀ k, k ≠ e.who → ∃ e' ∈ c.1, e'.who = k ∧ Entry.heard e'.entry = some p) then
    match (c.2 a.1).radioTick .arduino (BitVec.ofNat 32 (a.2.1 - on a.1)) rx with
    | .ok s' => some (⟨a.1, a.2.1, ⟨c.2 a.1, .radioTick (BitVec.ofNat 32 (a.2.1 - on a.1)) rx, s'⟩⟩ :: c.1,
        fun k => if k = a.1 then s' else c.2 k)
    | .error _ => none
  else none

theorem playStep_silence {n : Nat} {on : Fin n → Nat} {T₀ L : Nat} {s₀ : Fin n → Node}
    {c c' : List (Happening n) × (Fin n → Node)} {a : Fin n × Nat × Option Nat}
    (h : Silence on T₀ L s₀ c.1 c.2) (e : playStep on T₀ L c a = some c') : Silence on T₀ L s₀ c'.1 c'.2 := by
  simp only [playStep] at e
  split at e
  · rename_i k
    split at e
    · rename_i s' hs
      cases e
      refine .cons a.1 a.2.1 _ h k.1 k.2.1 k.2.2.1 ?_ k.2.2.2 hs
      intro p hp
      obtain ⟨j, _, hj⟩ := Option.bind_eq_some_iff.1 hp
      have := List.mem_of_getElem? hj
      exact List.mem_flatMap.1 this
    · cases e
  · cases e

/-- Several steps. -/
def play {n : Nat} (on : Fin n → Nat) (T₀ L : Nat) (c : List (Happening n) × (Fin n → Node)) :
    List (Fin n × Nat × Option Nat) → Option (List (Happening n) × (Fin n → Node))
  | [] => some c
  | a :: l => (playStep on T₀ L c a).bind fun c' => play on T₀ L c' l

theorem play_silence {n : Nat} {on : Fin n → Nat} {T₀ L : Nat} {s₀ : Fin n → Node} :
    ∀ {l : List (Fin n × Nat × Option Nat)} {c c' : List (Happening n) × (Fin n → Node)},
    Silence on T₀ L s₀ c.1 c.2 → play on T₀ L c l = some c' → Silence on T₀ L s₀ c'.1 c'.2
  | [], _, _, h, e => by cases e; exact h
  | a :: l, c, c', h, e => by
    obtain ⟨c₁, h1, h2⟩ := Option.bind_eq_some_iff.1 e
    exact play_silence (playStep_silence h h1) h2

/-- The draws of two devices. -/
def silentLuck (i : Fin 2) : Luck 2000 := (0, if i = 0 then 0 else 1999, 11, 12)

/-- The two devices of the example after they heard a heartbeat at 1500 (they are switched on at 1000, and
draw the time-outs 5000 and 6999). -/
def silent (i : Fin 2) : Node :=
  match { listening.s with rand := supply (fun k => 70 * i.val + k) (silentLuck i) }.radioTick .arduino 500 listening.rx with
  | .ok s => s
  | .error _ => (boot 0).2

/-- What they do: device 0 takes over at 6501, device 1 hears it at 6502, and both go on. -/
def silentPlan : List (Fin 2 × Nat × Option Nat) :=
  [(1, 6500, none), (0, 6501, none), (1, 6502, some 0), (0, 6503, some 0), (1, 7000, none), (0, 7001, none),
   (1, 7450, none), (0, 7460, some 0)]

theorem one_takes_over_demo :
    (∀ i, listening.After (fun k => 70 * i.val + k) (silentLuck i) (silent i)) ∧
    (∀ i, listening.TakesOverAfter (silent i) (if i = 0 then 6500 else 8499)) ∧
    ∃ (h : List (Happening 2)) (s : Fin 2 → Node),
      Silence (fun _ => listening.on) 6500 900 silent h s ∧ h.length = 8 ∧ (∀ e ∈ h, e.time ≤ 6500 + 1000) ∧
      (∃ e ∈ h, 6500 + 900 < e.time) ∧ (s 0).getCurrentState = .master ∧ (s 1).getCurrentState = .slave := by
  have h0 : ∀ i, listening.After (fun k => 70 * i.val + k) (silentLuck i) (silent i) := by
    intro i
    have hok : ∀ i : Fin 2, (match { listening.s with rand := supply (fun k => 70 * i.val + k) (silentLuck i) }.radioTick .arduino 500 listening.rx with
        | .ok _ => true
        | .error _ => false) = true := by decide +kernel
    have hi := hok i
    unfold Listener.After silent
    have e : BitVec.ofNat 32 (listening.time - listening.on) = (500 : U32) := rfl
    rw [e]
    split at hi
    · rename_i s hs
      rw [hs]
    · cases hi
  refine ⟨h0, ?_, ?_⟩
  · intro i
    obtain ⟨s', a1, a2⟩ := takeover_time takeover_demo.1 (fun k => 70 * i.val + k)
      (silentLuck i)
    have es : s' = silent i := by
      have e := a1.symm.trans (h0 i)
      cases e; rfl
    rw [es] at a2
    have ex : ∀ i : Fin 2, listening.time + 5000 +
        (silentLuck i).2.1.val % 2000 = if i = 0 then 6500 else 8499 := by
      decide +kernel
    rw [ex i] at a2
    exact a2
  · have hp : (match play (fun _ => listening.on) 6500 900 ([], silent) silentPlan with
      | some (h, s) => h.length == 8 && h.all (fun e => e.time ≤ 7500) && h.any (fun e => 7400 < e.time) &&
          (s 0).getCurrentState == .master && (s 1).getCurrentState == .slave
      | none => false) = true := by decide +kernel
    split at hp
    · rename_i h s hr
      simp only [Bool.and_eq_true, beq_iff_eq, List.all_eq_true, List.any_eq_true, decide_eq_true_eq] at hp
      obtain ⟨⟨⟨⟨k1, k2⟩, k3⟩, k4⟩, k5⟩ := hp
      exact ⟨h, s, play_silence (c := ([], silent)) .nil hr, k1, k2, k3, k4, k5⟩
    · cases hp

end Firefly.Props
