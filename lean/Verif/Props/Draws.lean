import Verif.Lemmas.Timeouts
import Verif.Props.Odds

/-! # The odds of other draws (C156, C157, C158) -/

namespace Firefly.Props
open Spec Demo

section
variable {K : Nat}

/-- **C156.** Whatever happens to a device, however the packets that reach it are chosen, and whenever they
come: the mean number of packets, in `n` steps, that it takes for old ones is at most `n * 5 / 65533`. -/
theorem seldom_missed (hK : 65533 ∣ K) {t₀ : U32} {h : List Entry} {s₀ : Node}
    (run : Run .arduino t₀ h s₀) (plan : List (Luck K) → Slot) (tail : Rand) (n : Nat) :
    (∑ w : Fin n → Luck K, (missed plan tail s₀ (List.ofFn w)).1) * 65533 ≤
      5 * n * Fintype.card (Fin n → Luck K) := by
  rw [Fintype.card_fun, Fintype.card_fin]
  exact missed_sum hK run.wf n

/-- **C156.** In at most `n * 5 / 65533` of the outcomes it takes any packet for an old one. -/
theorem seldom_missed_any (hK : 65533 ∣ K) {t₀ : U32} {h : List Entry} {s₀ : Node}
    (run : Run .arduino t₀ h s₀) (plan : List (Luck K) → Slot) (tail : Rand) (n : Nat) :
    (Finset.univ.filter fun w : Fin n → Luck K => (missed plan tail s₀ (List.ofFn w)).1 ≠ 0).card * 65533 ≤
      5 * n * Fintype.card (Fin n → Luck K) := by
  refine Nat.le_trans (Nat.mul_le_mul_right _ ?_) (seldom_missed hK run plan tail n)
  rw [Finset.card_filter]
  refine Finset.sum_le_sum fun w _ => ?_
  split
  · omega
  · exact Nat.zero_le _

open Classical in
/-- **C157.** If a tick in which nothing is heard changes the instruction, then the effect and the palette it
changes to are independent and uniform: for any set `Q` of pairs, the share of the outcomes in which the
device goes on with a pair in `Q` is the share of the pairs that are in `Q`. -/
theorem rotation_fair {t₀ : U32} {h : List Entry} {s : Node} (run : Run .arduino t₀ h s)
    {now : U32} {rx : Option Packet} (quiet : Quiet s rx) (r₀ : Rand) {s₁ : Node}
    (h₁ : { s with rand := r₀ }.radioTick .arduino now rx = .ok s₁)
    (new : ¬ SameContent s₁.getSetEffect s.getSetEffect)
    (he : s.numEffects ≠ 0) (hp : s.numPalettes ≠ 0)
    (hKe : s.numEffects.toNat ∣ K) (hKp : s.numPalettes.toNat ∣ K) (tail : Rand) (Q : Nat → Nat → Prop) :
    (Finset.univ.filter fun ω : Luck K =>
        ∃ s', { s with rand := supply tail ω }.radioTick .arduino now rx = .ok s' ∧
          Q s'.getEffectIndex.toNat s'.getSetEffect.data[2].toNat).card *
        (s.numEffects.toNat * s.numPalettes.toNat) =
      ((Finset.range s.numEffects.toNat ×ˢ Finset.range s.numPalettes.toNat).filter
        fun x => Q x.1 x.2).card * Fintype.card (Luck K) := by
  have wf (r : Rand) : ({ s with rand := r } : Node).WF := ⟨run.wf.idx, run.wf.next, run.wf.timerNone⟩
  have hd : s.delivered rx = none := quiet.delivered run.wf
  have hc : changes now rx s := by
    have hd' : ({ s with rand := r₀ } : Node).delivered rx = none := hd
    exact changes_of (s := { s with rand := r₀ }) (wf r₀) h₁ hd' new
  have e : (Finset.univ.filter fun ω : Luck K =>
        ∃ s', { s with rand := supply tail ω }.radioTick .arduino now rx = .ok s' ∧
          Q s'.getEffectIndex.toNat s'.getSetEffect.data[2].toNat) =
      Finset.univ.filter fun ω : Luck K =>
        Q (ω.2.1.val % s.numEffects.toNat) (ω.2.2.1.val % s.numPalettes.toNat) := by
    refine Finset.filter_congr fun ω _ => ?_
    have hcω : changes now rx ({ s with rand := supply tail ω } : Node) := hc
    obtain ⟨s', k1, k2, k3⟩ := change_result (wf (supply tail ω)) hcω he hp
    have k2' : s'.getEffectIndex.toNat = ω.2.1.val % s.numEffects.toNat := k2
    have k3' : s'.getSetEffect.data[2].toNat = ω.2.2.1.val % s.numPalettes.toNat := k3
    constructor
    · rintro ⟨s'', j1, j2⟩
      rw [k1] at j1
      cases j1
      rw [← k2', ← k3']
      exact j2
    · intro j
      refine ⟨s', k1, ?_⟩
      rw [k2', k3']
      exact j
  rw [e]
  exact luck_two hKe hKp Q

/-- **C158.** A slave that hears a heartbeat or a claim and then nothing more turns master between 5 and 7
seconds later, at a time given by the draw. -/
theorem takeover_time {d : Listener} (pr : d.Proper) (tail : Rand) (ω : Luck K) :
    ∃ s', d.After tail ω s' ∧ d.TakesOverAfter s' (d.time + 5000 + ω.2.1.val % 2000) :=
  after_takes_over pr tail ω

/-- **C158.** Each of these times is equally likely. -/
theorem takeover_uniform (hK : 2000 ∣ K) {d : Listener} (pr : d.Proper) (tail : Rand) (c : Nat) (hc : c < 2000) :
    open Classical in
    (Finset.univ.filter fun ω : Luck K =>
        ∃ s', d.After tail ω s' ∧ d.TakesOverAfter s' (d.time + 5000 + c)).card * 2000 =
      Fintype.card (Luck K) := by
  classical
  have e : (Finset.univ.filter fun ω : Luck K =>
        ∃ s', d.After tail ω s' ∧ d.TakesOverAfter s' (d.time + 5000 + c)) =
      Finset.univ.filter fun ω : Luck K => ω.2.1.val % 2000 = c := by
    refine Finset.filter_congr fun ω _ => ?_
    constructor
    · rintro ⟨s', j1, j2⟩
      have := takes_over_unique pr j1 j2
      omega
    · rintro rfl
      exact after_takes_over pr tail ω
  rw [e]
  have h1 := luck_two hK (Nat.one_dvd K) fun a _ => a = c
  have h2 : ((Finset.range 2000 ×ˢ Finset.range 1).filter fun x => x.1 = c) = {(c, 0)} := by
    ext ⟨a, b⟩
    simp only [Finset.mem_filter, Finset.mem_product, Finset.mem_range, Finset.mem_singleton, Prod.mk.injEq]
    omega
  rw [h2, Finset.card_singleton, Nat.one_mul, Nat.mul_one] at h1
  exact h1

open Classical in
/-- **C158.** Of `n` slaves that heard a heartbeat or a claim, each at its own time, and then nothing more, two
take over within `δ` ms of each other in at most `n * (n - 1) / 2 * (2 * δ + 1) / 2000` of the outcomes. -/
theorem takeover_odds (hK : 2000 ∣ K) {n : Nat} (d : Fin n → Listener) (pr : ∀ i, (d i).Proper)
    (tail : Fin n → Rand) (δ : Nat) :
    (Finset.univ.filter fun w : Fin n → Luck K => ∃ i j, i ≠ j ∧ ∃ (si sj : Node) (xi xj : Nat),
        (d i).After (tail i) (w i) si ∧ (d i).TakesOverAfter si xi ∧
        (d j).After (tail j) (w j) sj ∧ (d j).TakesOverAfter sj xj ∧
        xi ≤ xj + δ ∧ xj ≤ xi + δ).card * 4000 ≤
      n * (n - 1) * (2 * δ + 1) * Fintype.card (Fin n → Luck K) := by
  refine Nat.le_trans (Nat.mul_le_mul_right _ (Finset.card_le_card ?_))
    (close_any hK (fun i => (d i).time + 5000) δ)
  intro w hw
  simp only [Finset.mem_filter, Finset.mem_univ, true_and] at hw ⊢
  obtain ⟨i, j, hij, si, sj, xi, xj, a1, a2, b1, b2, c1, c2⟩ := hw
  refine ⟨i, j, hij, ?_⟩
  have e1 := takes_over_unique (pr i) a1 a2
  have e2 := takes_over_unique (pr j) b1 b2
  rw [e1, e2] at c1 c2
  exact ⟨c1, c2⟩

end

/-! ### Concrete cases -/

/-- Luck with which a device hears the packets that reach it, and luck with which it takes the second for
the first. -/
theorem seldom_missed_demo :
    Run .arduino 0 (boot 0).1 (boot 0).2 ∧ 65533 ∣ 65533 * 65534 ∧
    (missed duelPlan (fun _ => 0) (boot 0).2
      [luck ⟨20, by decide⟩ ⟨60000, by decide⟩, luck ⟨30, by decide⟩ ⟨40, by decide⟩,
       luck ⟨10, by decide⟩ ⟨50000, by decide⟩]).1 = 0 ∧
    (missed duelPlan (fun _ => 0) (boot 0).2
      [luck ⟨20, by decide⟩ ⟨60000, by decide⟩, luck ⟨30, by decide⟩ ⟨40, by decide⟩,
       luck ⟨65533 + 20, by decide⟩ ⟨50000, by decide⟩]).1 = 1 :=
  ⟨boot_run 0, ⟨65534, rfl⟩, by decide +kernel, by decide +kernel⟩

/-- A master with ten effects and four palettes, about to change the effect. -/
def rotating : List Entry × Node :=
  (bootRun .arduino 0 (fun n => n) [.setNumEffects 1 10, .setNumPalettes 2 4, .radioTick 6000 none,
    .radioTick 70000 none]).getD (boot 0)

theorem rotation_fair_demo :
    Run .arduino 0 rotating.1 rotating.2 ∧ Quiet rotating.2 none ∧
    rotating.2.numEffects.toNat ∣ 20 ∧ rotating.2.numPalettes.toNat ∣ 20 ∧
    rotating.2.numEffects ≠ 0 ∧ rotating.2.numPalettes ≠ 0 ∧
    ∃ (now : U32) (s₁ : Node), { rotating.2 with rand := fun _ => 3 }.radioTick .arduino now none = .ok s₁ ∧
      ¬ SameContent s₁.getSetEffect rotating.2.getSetEffect := by
  refine ⟨?_, quiet_of_delivered rfl, by decide +kernel, by decide +kernel, by decide +kernel,
    by decide +kernel, 70001, ?_⟩
  · have h : (bootRun .arduino 0 (fun n => n) [.setNumEffects 1 10, .setNumPalettes 2 4, .radioTick 6000 none,
      .radioTick 70000 none]).isSome = true := by decide +kernel
    apply bootRun_run
    obtain ⟨x, hx⟩ := Option.isSome_iff_exists.1 h
    exact hx.trans (by unfold rotating; rw [hx]; rfl)
  · have h : (match { rotating.2 with rand := fun _ => 3 }.radioTick .arduino 70001 none with
      | .ok s₁ => decide (s₁.getSetEffect.data = rotating.2.getSetEffect.data)
      | .error _ => true) = false := by decide +kernel
    split at h
    · rename_i s₁ hs
      exact ⟨s₁, hs, fun k => of_decide_eq_false h k.2.2⟩
    · cases h

/-- A slave that has just been switched on, at 1000 on the common clock, and hears a heartbeat at 1500. -/
def listening : Listener :=
  { s := ((bootRun .arduino 0 (fun n => n) []).getD (boot 0)).2
    on := 1000
    time := 1500
    rx := some ⟨77, .heartbeat, 4, Vector.replicate 58 0⟩ }

theorem takeover_demo : listening.Proper ∧ 2000 ∣ 2000 := by
  refine ⟨⟨?_, by decide +kernel, ?_, by decide, by decide⟩, ⟨1, rfl⟩⟩
  · have h : (bootRun .arduino 0 (fun n => n) []).isSome = true := by decide +kernel
    refine ⟨0, ((bootRun .arduino 0 (fun n => n) []).getD (boot 0)).1, ?_⟩
    apply bootRun_run (rand := fun n => n) (ops := [])
    obtain ⟨x, hx⟩ := Option.isSome_iff_exists.1 h
    exact hx.trans (by unfold listening; rw [hx]; rfl)
  · have h : (match listening.s.nm.receive listening.rx with
      | .ok (some p, _, _) => decide (p.type = .heartbeat)
      | _ => false) = true := by decide +kernel
    split at h
    · rename_i p out m hs
      exact ⟨p, ⟨out, m, hs⟩, .inl (of_decide_eq_true h)⟩
    · cases h

end Firefly.Props
