import Verif.Spec.Sleep
import Verif.Props.ControllerPanel
import Verif.Props.Board

/-! # When a device sleeps because of its battery (C76, C90, C96) -/

namespace Firefly.Props
open Spec

theorem stillLow_cons {cutoff resume : Nat} {i : Battery.Input} {l : List Battery.Input} :
    StillLow cutoff resume (i :: l) ↔ (i.expired = true ∧ i.value.toNat < cutoff) ∨
      (StillLow cutoff resume l ∧ (i.expired = true → i.value.toNat ≤ resume)) := by
  constructor
  · rintro ⟨newer, x, older, he, hx, hv, hall⟩
    cases newer with
    | nil =>
      simp only [List.nil_append, List.cons.injEq] at he
      obtain ⟨rfl, rfl⟩ := he
      exact .inl ⟨hx, hv⟩
    | cons y newer =>
      simp only [List.cons_append, List.cons.injEq] at he
      obtain ⟨rfl, rfl⟩ := he
      exact .inr ⟨⟨newer, x, older, rfl, hx, hv, fun z hz => hall z (List.mem_cons_of_mem _ hz)⟩,
        hall _ List.mem_cons_self⟩
  · rintro (⟨hx, hv⟩ | ⟨⟨newer, x, older, rfl, hx, hv, hall⟩, hi⟩)
    · exact ⟨[], i, l, rfl, hx, hv, nofun⟩
    · refine ⟨i :: newer, x, older, rfl, hx, hv, fun y hy => ?_⟩
      rcases List.mem_cons.1 hy with rfl | hy
      · exact hi
      · exact hall y hy

theorem stillLow_nil {cutoff resume : Nat} : ¬ StillLow cutoff resume [] := by
  rintro ⟨newer, x, older, he, _⟩
  cases newer <;> cases he

/-- One step of the supervision of the battery, with the thresholds as numbers. -/
theorem battery_step_low (k : Battery.Kind) (low : Bool) (i : Battery.Input)
    {cutoff resume : Nat} (hc : (Battery.rawReading k.lowCutoff).toNat = cutoff)
    (hr : (Battery.rawReading k.resume).toNat = resume) (hcr : cutoff < resume) :
    ((Battery.step k low i).low = true ↔ (i.expired = true ∧ i.value.toNat < cutoff) ∨
      (low = true ∧ (i.expired = true → i.value.toNat ≤ resume))) ∧
    ((Battery.step k low i).active = false ↔
      i.expired = true ∧ (Battery.step k low i).low = true) := by
  have e1 : ∀ v : U16, decide (v < Battery.rawReading k.lowCutoff) = decide (v.toNat < cutoff) := by
    intro v; simp only [BitVec.lt_def, hc]
  have e2 : ∀ v : U16, Battery.rawReading k.resume < v ↔ resume < v.toNat := by
    intro v; rw [BitVec.lt_def, hr]
  simp only [Battery.step, e1, e2]
  cases i.expired
  · simp
  · cases low <;> by_cases h1 : i.value.toNat < cutoff <;>
      by_cases h2 : resume < i.value.toNat <;> simp [h1, h2] <;> omega

section Pad
open Controller

theorem controller_low_step {env : Env} {s s' : State} {inp : Input}
    (h : loop env inp s = .ok s') :
    s'.low = (Battery.step .controller s.low inp.battery).low := by
  by_cases ha : Awake s inp
  · obtain ⟨node, ht, hrm⟩ := loop_ok ha h
    have e : (entered inp s node).low = (Battery.step .controller s.low inp.battery).low := rfl
    rcases mode_cases inp with hm | hm | hm
    · rw [runMode, modeOf_effect hm] at hrm
      obtain ⟨s₁, e, x, y, h1, _, _, _, h3⟩ := runEffectMode_ok hrm
      have : s₁.low = (entered inp s node).low := by
        unfold select at h1
        simp only [bind, Except.bind, pure, Except.pure] at h1
        repeat' split at h1
        all_goals first | cases h1; rfl | cases h1
      rw [h3]; exact this
    · rw [runMode, modeOf_colour hm] at hrm
      obtain ⟨x, _, _, h3, _⟩ := runColorMode_ok hrm
      rw [h3]; rfl
    · rw [runMode, modeOf_palette hm] at hrm
      obtain ⟨x, _, _, h3, _⟩ := runPaletteMode_ok hrm
      rw [h3]; rfl
  · have hs := (battery_step_low .controller s.low inp.battery (cutoff := 784) (resume := 888)
      (by rw [thresholds.1]; rfl) (by rw [thresholds.2.2.1]; rfl) (by decide)).2
    have hl : (Battery.step .controller s.low inp.battery).low = true :=
      (hs.1 (by simpa [Awake] using ha)).2
    rw [loop_asleep ha] at h
    cases h
    exact hl.symm

theorem controller_low {env : Env} {t₀ rand rng gauge h s}
    (run : Controller.Run env (Controller.init env t₀ rand rng gauge) h s) :
    s.low = true ↔ StillLow 784 888 (h.map (·.2.1.battery)) := by
  induction run with
  | nil => exact ⟨fun h => (by cases h), fun h => absurd h stillLow_nil⟩
  | @cons h s s' inp _ hl ih =>
    rw [controller_low_step hl, List.map_cons, stillLow_cons, ← ih]
    exact (battery_step_low .controller s.low inp.battery (by rw [thresholds.1]; rfl)
      (by rw [thresholds.2.2.1]; rfl) (by decide)).1

/-- C76 and C90: the controller skips an iteration exactly if its battery is low: the start-up time is
over, a reading taken after it (this one or an earlier one) was below 784 (3.4 V), and none since was
above 888 (3.85 V). -/
theorem controller_sleeps_iff {env : Env} {t₀ rand rng gauge h s}
    (run : Controller.Run env (Controller.init env t₀ rand rng gauge) h s) (inp : Input) :
    ¬ Awake s inp ↔ inp.battery.expired = true ∧
      StillLow 784 888 (inp.battery :: h.map (·.2.1.battery)) := by
  obtain ⟨h1, h2⟩ := battery_step_low .controller s.low inp.battery (by rw [thresholds.1]; rfl)
    (by rw [thresholds.2.2.1]; rfl) (by decide : 784 < 888)
  rw [stillLow_cons, ← controller_low run, ← h1, ← h2]
  simp [Awake]

/-- A concrete case: after a good reading and a low one, the controller sleeps on at 888 and is awake
at 889. -/
example : ∃ h s, Controller.Run Demo.env Demo.start h s ∧ h.length = 2 ∧
    ¬ Awake s { Demo.quiet 1100 100 with battery := ⟨true, 888⟩ } ∧
    Awake s { Demo.quiet 1100 100 with battery := ⟨true, 889⟩ } := by
  obtain ⟨h, s, r, c⟩ := Demo.run_of_check
    (l := [{ Demo.quiet 1050 100 with battery := ⟨true, 783⟩ }, Demo.quiet 1000 100])
    (fun h s => decide (h.length = 2 ∧
      ¬ Awake s { Demo.quiet 1100 100 with battery := ⟨true, 888⟩ } ∧
      Awake s { Demo.quiet 1100 100 with battery := ⟨true, 889⟩ })) (by decide +kernel)
  exact ⟨h, s, r, of_decide_eq_true c⟩

end Pad

theorem board_low_step {env : Board.Env} (hp : env.program = .fancyNode) {s s' : Board.State}
    {inp : Board.Input} (h : Board.loop env inp s = .ok s') :
    s'.low = (Battery.step .fancyNode s.low inp.battery).low := by
  unfold Board.loop at h
  rw [hp] at h
  simp only [Board.loopFancyNode, bind, Except.bind, pure, Except.pure] at h
  repeat' split at h
  all_goals first | cases h; rfl | cases h

theorem board_low {env : Board.Env} (hp : env.program = .fancyNode) {t₀ rand h s}
    (r : Board.Run env (Board.init env t₀ rand) h s) :
    s.low = true ↔ StillLow 830 888 (h.map (·.2.1.battery)) := by
  induction r with
  | nil => exact ⟨fun h => (by cases h), fun h => absurd h stillLow_nil⟩
  | @cons h s s' inp _ hl ih =>
    rw [board_low_step hp hl, List.map_cons, stillLow_cons, ← ih]
    exact (battery_step_low .fancyNode s.low inp.battery (by rw [thresholds.2.1]; rfl)
      (by rw [thresholds.2.2.1]; rfl) (by decide)).1

/-- C76 and C96: the fancy node skips an iteration exactly if its battery is low: the start-up time is
over, a reading taken after it was below 830 (3.6 V), and none since was above 888 (3.85 V). -/
theorem board_sleeps_iff {env : Board.Env} (hp : env.program = .fancyNode) {t₀ rand h s}
    (r : Board.Run env (Board.init env t₀ rand) h s) (inp : Board.Input) :
    ¬ BoardAwake env s inp ↔ inp.battery.expired = true ∧
      StillLow 830 888 (inp.battery :: h.map (·.2.1.battery)) := by
  obtain ⟨h1, h2⟩ := battery_step_low .fancyNode s.low inp.battery (by rw [thresholds.2.1]; rfl)
    (by rw [thresholds.2.2.1]; rfl) (by decide : 830 < 888)
  rw [stillLow_cons, ← board_low hp r, ← h1, ← h2]
  simp [BoardAwake, hp]

/-- A concrete case: after a reading of 829 the fancy node sleeps on at 888 and is awake at 889. -/
example : ∃ h s, Board.Run (Board.Demo.env .fancyNode) (Board.Demo.start .fancyNode) h s ∧
    h.map (·.2.1) = [Board.Demo.input 1050 829 none none, Board.Demo.input 1020 950 none none] ∧
    decide ((Battery.step .fancyNode s.low ⟨true, 888⟩).active = false ∧
      (Battery.step .fancyNode s.low ⟨true, 889⟩).active = true) = true :=
  Board.Demo.run_of_check (fun _ s => decide
    ((Battery.step .fancyNode s.low ⟨true, 888⟩).active = false ∧
      (Battery.step .fancyNode s.low ⟨true, 889⟩).active = true)) (by decide +kernel)

/-- C96: the node has no battery to supervise and never skips an iteration. -/
theorem node_never_sleeps {env : Board.Env} (hp : env.program = .node) (s : Board.State)
    (inp : Board.Input) : BoardAwake env s inp := by
  intro h; rw [hp] at h; cases h

end Firefly.Props
