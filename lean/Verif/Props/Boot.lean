import Verif.Spec.Devices

/-! # Properties C80–C82: bootloader entry, watchdog, analog buttons -/

namespace Firefly.Props
open Spec

section Bootloader
open Boot

theorem setup_soft {t : Nat} {lag : Nat × Nat} {sub : Fin 1000} (h1 : (t + lag.1) / 1000 = 1451606400)
    (h2 : 100 < t % 1000) :
    setup t lag sub = (Outcome.softReset, 1441606400 * 1000 + sub.val) := if_pos ⟨h1, h2⟩

theorem setup_bootloader {t : Nat} {lag : Nat × Nat} {sub : Fin 1000}
    (h1 : (t + lag.1 + lag.2) / 1000 = 1441606400) :
    setup t lag sub = (Outcome.bootloader, 1451606400 * 1000 + sub.val) := by
  refine (if_neg ?_).trans (if_pos h1)
  rintro ⟨h, -⟩
  have h : (t + lag.1) / 1000 = 1451606400 := h
  omega

theorem setup_application {t : Nat} {lag : Nat × Nat} {sub : Fin 1000}
    (h1 : ¬ ((t + lag.1) / 1000 = 1451606400 ∧ 100 < t % 1000))
    (h2 : (t + lag.1 + lag.2) / 1000 ≠ 1441606400) :
    setup t lag sub = (Outcome.application, 1451606400 * 1000) :=
  (if_neg h1).trans (if_neg h2)

theorem setup_cases (t : Nat) (lag : Nat × Nat) (sub : Fin 1000) :
    ((t + lag.1) / 1000 = 1451606400 ∧ 100 < t % 1000 ∧
      setup t lag sub = (Outcome.softReset, 1441606400 * 1000 + sub.val)) ∨
    ((t + lag.1 + lag.2) / 1000 = 1441606400 ∧
      setup t lag sub = (Outcome.bootloader, 1451606400 * 1000 + sub.val)) ∨
    (¬ ((t + lag.1) / 1000 = 1451606400 ∧ 100 < t % 1000) ∧ (t + lag.1 + lag.2) / 1000 ≠ 1441606400 ∧
      setup t lag sub = (Outcome.application, 1451606400 * 1000)) := by
  by_cases h : (t + lag.1) / 1000 = 1451606400 ∧ 100 < t % 1000
  · exact .inl ⟨h.1, h.2, setup_soft h.1 h.2⟩
  · by_cases h2 : (t + lag.1 + lag.2) / 1000 = 1441606400
    · exact .inr (.inl ⟨h2, setup_bootloader h2⟩)
    · exact .inr (.inr ⟨h, h2, setup_application h h2⟩)

/-- The clock a start leaves behind. -/
theorem clock_left {l t} (h : Hist l t) : ∃ s l', l = s :: l' ∧
    (s.outcome = .application → t = 1451606400 * 1000) ∧
    (s.outcome = .bootloader → t = 1451606400 * 1000 + s.sub) ∧
    (s.outcome = .softReset → t = 1441606400 * 1000 + s.sub) := by
  cases h with
  | first t lag sub =>
    refine ⟨_, _, rfl, ?_⟩
    rcases setup_cases t lag sub with ⟨-, -, e⟩ | ⟨-, e⟩ | ⟨-, -, e⟩ <;> rw [e]
    · exact ⟨nofun, nofun, fun _ => rfl⟩
    · exact ⟨nofun, fun _ => rfl, nofun⟩
    · exact ⟨fun _ => rfl, nofun, nofun⟩
  | next c lag sub h =>
    refine ⟨_, _, rfl, ?_⟩
    rcases setup_cases (c.clock _) lag sub with ⟨-, -, e⟩ | ⟨-, e⟩ | ⟨-, -, e⟩ <;> rw [e]
    · exact ⟨nofun, nofun, fun _ => rfl⟩
    · exact ⟨nofun, fun _ => rfl, nofun⟩
    · exact ⟨fun _ => rfl, nofun, nofun⟩

theorem _root_.Firefly.Boot.Hist.uncons {s l t} (h : Hist (s :: l) t) (hl : l ≠ []) :
    ∃ t', Hist l t' ∧ s.outcome = (setup (s.cause.clock t') s.lag s.sub).1 := by
  cases h with
  | first => exact absurd rfl hl
  | next c lag sub h => exact ⟨_, h, rfl⟩

/-- C80.  For every sequence of power-ups and resets: if a start of the CPU ends in the
bootloader, it was a reset within the same second of a start that ended in the software reset,
which was itself a reset inside the arming window (more than 100 ms and less than a second)
of a start that had not ended in the software reset.  In particular power-ups never enter the
bootloader. -/
theorem bootloader_needs_double_reset {s l t} (h : Hist (s :: l) t)
    (hp : FreshPowerUps (s :: l)) (hs : PromptSoftResets (s :: l)) (hb : s.outcome = .bootloader) :
    ∃ dt₁ s₁ dt₂ s₂ l₂, l = s₁ :: s₂ :: l₂ ∧
      s.cause = .reset dt₁ ∧ dt₁ < 1000 ∧ s₁.outcome = .softReset ∧
      s₁.cause = .reset dt₂ ∧ s₂.outcome ≠ .softReset ∧ InArmingWindow s₂ dt₂ := by
  have notPower : ∀ (s : Start) t, s.outcome = (setup t s.lag s.sub).1 →
      (∀ x, t ≤ x → x ≤ t + s.lag.1 + s.lag.2 → x / 1000 ≠ 1451606400 ∧ x / 1000 ≠ 1441606400) →
      s.outcome = .application := by
    intro s t ho hf
    have h1 := (hf (t + s.lag.1) (by omega) (by omega)).1
    rw [ho, setup_application (t := t) (by omega) (hf _ (by omega) (Nat.le_refl _)).2]
  -- the newest start
  by_cases hl : l = []
  · subst hl
    cases h with
    | first t lag sub =>
      have hf := hp _ List.mem_cons_self t rfl
      have := notPower ⟨.power t, lag, sub, (setup t lag sub).1⟩ t rfl hf
      rw [this] at hb; cases hb
    | next c lag sub h => cases h
  obtain ⟨t₁, h₁, ho⟩ := h.uncons hl
  obtain ⟨s₁, l₁, rfl, ha₁, hb₁, hc₁⟩ := clock_left h₁
  cases hcs : s.cause with
  | power tp =>
    have hf := hp _ List.mem_cons_self tp hcs
    rw [hcs] at ho
    have := notPower s tp ho hf
    rw [this] at hb; cases hb
  | reset dt₁ =>
    rw [hcs, hb] at ho
    have hclk : (t₁ + dt₁ + s.lag.1 + s.lag.2) / 1000 = 1441606400 := by
      rcases setup_cases (t₁ + dt₁) s.lag s.sub with ⟨-, -, e⟩ | ⟨e, -⟩ | ⟨-, -, e⟩
      · rw [Cause.clock, e] at ho; cases ho
      · exact e
      · rw [Cause.clock, e] at ho; cases ho
    have hso : s₁.outcome = .softReset := by
      cases hx : s₁.outcome with
      | application => have := ha₁ hx; omega
      | bootloader => have := hb₁ hx; have := s₁.sub.isLt; omega
      | softReset => rfl
    have ht₁ := hc₁ hso
    have hdt₁ : dt₁ < 1000 := by omega
    -- the start before it
    by_cases hl₁ : l₁ = []
    · subst hl₁
      cases h₁ with
      | first t lag sub =>
        have hf := hp _ (List.mem_cons_of_mem _ List.mem_cons_self) t rfl
        have := notPower ⟨.power t, lag, sub, (setup t lag sub).1⟩ t rfl hf
        rw [this] at hso; cases hso
      | next c lag sub h => cases h
    obtain ⟨t₂, h₂, ho₂⟩ := h₁.uncons hl₁
    obtain ⟨s₂, l₂, rfl, ha₂, hb₂, hc₂⟩ := clock_left h₂
    cases hcs₁ : s₁.cause with
    | power tp =>
      have hf := hp s₁ (by simp) tp hcs₁
      rw [hcs₁] at ho₂
      have := notPower s₁ tp ho₂ hf
      rw [this] at hso; cases hso
    | reset dt₂ =>
      rw [hcs₁, hso] at ho₂
      have hclk₂ : (t₂ + dt₂ + s₁.lag.1) / 1000 = 1451606400 ∧ 100 < (t₂ + dt₂) % 1000 := by
        rcases setup_cases (t₂ + dt₂) s₁.lag s₁.sub with ⟨h1, h2, -⟩ | ⟨-, e⟩ | ⟨-, -, e⟩
        · exact ⟨h1, h2⟩
        · rw [Cause.clock, e] at ho₂; cases ho₂
        · rw [Cause.clock, e] at ho₂; cases ho₂
      have hprompt : s₂.outcome = .softReset → dt₂ + s₁.lag.1 + s₁.lag.2 < 1000000000 := by
        intro hx
        exact hs [s] s₁ s₂ l₂ dt₂ rfl hcs₁ hx
      have hne : s₂.outcome ≠ .softReset := by
        intro hx
        have := hc₂ hx; have := s₂.sub.isLt; have := hprompt hx
        omega
      refine ⟨dt₁, s₁, dt₂, s₂, l₂, rfl, rfl, hdt₁, hso, hcs₁, hne, ?_⟩
      cases hx : s₂.outcome with
      | application =>
        have := ha₂ hx
        simp only [InArmingWindow, hx]; omega
      | bootloader =>
        have := hb₂ hx; have := s₂.sub.isLt
        simp only [InArmingWindow, hx]; omega
      | softReset => exact absurd hx hne

/-- C80.  A power-up starts the application. -/
theorem power_up_runs_application {s l t} (h : Hist (s :: l) t) (hp : FreshPowerUps (s :: l))
    {tp : Nat} (hc : s.cause = .power tp) : s.outcome = .application := by
  have hf := hp _ List.mem_cons_self tp hc
  have ho : s.outcome = (setup tp s.lag s.sub).1 := by
    cases h with
    | first t lag sub => cases hc; rfl
    | next c lag sub h => simp only at hc; subst hc; rfl
  have h1 := (hf (tp + s.lag.1) (by omega) (by omega)).1
  rw [ho, setup_application (t := tp) (by omega) (hf _ (by omega) (Nat.le_refl _)).2]

/-- C80.  After a normal start: a reset within the first 100 ms (such as the one the USB bridge
makes at power-up), or so late that the code reads the epoch after the first second, starts the
application again; a reset in between leads to the software reset, and the restart, if it comes
(with its readings) within the same second, to the bootloader. -/
theorem reset_after_application {s l t} (h : Hist (s :: l) t) (ha : s.outcome = .application)
    (dt : Nat) (lag : Nat × Nat) (sub : Fin 1000) :
    ((setup ((Cause.reset dt).clock t) lag sub).1 = .application ↔ dt ≤ 100 ∨ 1000 ≤ dt + lag.1) ∧
    (100 < dt → dt + lag.1 < 1000 → ∀ (dt' : Nat) (lag' : Nat × Nat) (sub' : Fin 1000),
      sub.val + dt' + lag'.1 + lag'.2 < 1000 →
      (setup ((Cause.reset dt).clock t) lag sub).1 = .softReset ∧
      (setup ((Cause.reset dt').clock (setup ((Cause.reset dt).clock t) lag sub).2) lag' sub').1 =
        .bootloader) := by
  obtain ⟨_, _, he, h1, -, -⟩ := clock_left h
  cases he
  have ht := h1 ha
  subst ht
  simp only [Cause.clock]
  constructor
  · constructor
    · intro h
      apply Decidable.byContradiction
      intro hn
      rw [setup_soft (t := 1451606400 * 1000 + dt) (by omega) (by omega)] at h; cases h
    · intro h
      rw [setup_application (t := 1451606400 * 1000 + dt) (by omega) (by omega)]
  · intro h1 h2 dt' lag' sub' h3
    rw [setup_soft (t := 1451606400 * 1000 + dt) (by omega) (by omega)]
    refine ⟨rfl, ?_⟩
    rw [setup_bootloader (by omega)]

/-- Power-up at an arbitrary date, reset after 50 ms and 2 s (both run the application), then a
deliberate reset 300 ms after that start: bootloader. -/
example : ∃ l t, Hist l t ∧ FreshPowerUps l ∧ PromptSoftResets l ∧
    l.map (·.outcome) = [.bootloader, .softReset, .application, .application, .application] := by
  refine ⟨_, _, .next (.reset 5) (1, 1) 0 (.next (.reset 300) (0, 1) 0 (.next (.reset 2000) (0, 0) 0
    (.next (.reset 50) (1, 0) 0 (.first 946684800000 (1, 1) 0)))), ?_, ?_, by decide +kernel⟩
  · intro s hs tp hc
    simp only [List.mem_cons, List.not_mem_nil, or_false] at hs
    rcases hs with rfl | rfl | rfl | rfl | rfl <;> cases hc
    intro x h1 h2
    have h2 : x ≤ 946684800000 + 1 + 1 := h2
    omega
  · intro l₀ s₀ s₁ l₁ dt he hc ho
    match l₀, he with
    | [], he => cases he; cases hc; decide
    | [_], he => cases he; exact absurd ho (by decide +kernel)
    | [_, _], he => cases he; exact absurd ho (by decide +kernel)
    | [_, _, _], he => cases he; exact absurd ho (by decide +kernel)
    | [_, _, _, _], he => cases he
    | _ :: _ :: _ :: _ :: _ :: l, he => cases l <;> cases he

end Bootloader

section Watchdog
open Watchdog

/-- C81.  The node feeds its watchdog in iterations 6, 12, 18, … (counting from 0), for ever. -/
theorem watchdog_schedule (n : Nat) : fed n = true ↔ 0 < n ∧ n % 6 = 0 := by
  have key : ∀ n : Nat, n = 0 ∧ (counter n).toNat = 0 ∨
      0 < n ∧ (counter n).toNat = (n - 1) % 6 + 1 := by
    intro n
    induction n with
    | zero => exact .inl ⟨rfl, rfl⟩
    | succ n ih =>
      right
      refine ⟨by omega, ?_⟩
      simp only [counter, step]
      by_cases h : (5 : U8) < counter n
      · simp only [h, decide_true, if_true]
        rw [BitVec.lt_def, show (5 : U8).toNat = 5 from rfl] at h
        have : ((0 : U8) + 1).toNat = 1 := rfl
        rw [this]; omega
      · simp only [h, decide_false, Bool.false_eq_true, if_false, BitVec.toNat_add]
        rw [BitVec.lt_def, show (5 : U8).toNat = 5 from rfl] at h
        rw [show (1 : U8).toNat = 1 from rfl]
        omega
  simp only [fed, step, decide_eq_true_eq]
  have := key n
  rw [BitVec.lt_def, show (5 : U8).toNat = 5 from rfl]
  omega

/-- C81.  Among any seven consecutive iterations at least one feeds the watchdog, from the very
first iteration on and for ever. -/
theorem watchdog_fed_every_seven (n : Nat) : ∃ i, n ≤ i ∧ i < n + 7 ∧ fed i = true := by
  by_cases h : n % 6 = 0
  · exact ⟨n + 6, by omega, by omega, (watchdog_schedule _).2 (by omega)⟩
  · exact ⟨n + (6 - n % 6), by omega, by omega, (watchdog_schedule _).2 (by omega)⟩

example : fed 6 = true ∧ fed 7 = false ∧ fed 12 = true ∧ fed 0 = false := by decide

/-- C81 in real time.  Let iteration `i` take `dur i` (any unit), be shorter than the watchdog
period divided by seven, and let the watchdog be fed at time 0.  Then even at the end of every
iteration, before a feeding in it takes effect, the most recent feeding is at most one period
ago: the watchdog never resets a healthy node. -/
theorem watchdog_never_fires (dur : Nat → Nat) (period : Nat) (hd : ∀ i, 7 * dur i ≤ period)
    (n : Nat) : sinceFed dur fed n + dur n ≤ period := by
  have hfeed : ∀ n, ∃ k, (n = 0 ∧ k = 0 ∨ 0 < n ∧ k = (n - 1) % 6 + 1) ∧
      7 * sinceFed dur fed n ≤ k * period := by
    intro n
    induction n with
    | zero => exact ⟨0, by simp [sinceFed]⟩
    | succ n ih =>
      obtain ⟨k, hk, hs⟩ := ih
      have := hd n
      refine ⟨n % 6 + 1, .inr ⟨by omega, rfl⟩, ?_⟩
      simp only [sinceFed]
      by_cases hf : fed n = true
      · have := (watchdog_schedule n).1 hf
        rw [if_pos hf, this.2]; omega
      · rw [if_neg hf]
        have hn : ¬ (0 < n ∧ n % 6 = 0) := fun h => hf ((watchdog_schedule n).2 h)
        have hkk : n % 6 + 1 = k + 1 := by omega
        rw [hkk, Nat.add_mul]; omega
  obtain ⟨k, hk, hs⟩ := hfeed n
  have : k * period ≤ 6 * period := Nat.mul_le_mul_right _ (by omega)
  have := hd n
  omega

/-- With iterations of 17 ms and the 125 ms period of the code (4096 cycles of a 32768 Hz
clock), the bound is met. -/
example : ∀ i : Nat, 7 * (fun _ : Nat => 17) i ≤ 125 := fun _ => (by decide : 7 * 17 ≤ 125)

end Watchdog

section Buttons
open AnalogButton

/-- The remembered state is the button of the last stable reading (0 if there was none). -/
theorem prev_spec (inp : Nat → U16 × Bool) (n : Nat) :
    ((∀ m < n, (inp m).2 = false) ∧ (run inp n).prev = 0) ∨
    ∃ m < n, LastStable inp n m ∧ (run inp n).prev = readAnalog (inp m).1 := by
  induction n with
  | zero => exact Or.inl ⟨by omega, rfl⟩
  | succ n ih =>
    cases hst : (inp n).2
    · have e : (run inp (n + 1)).prev = (run inp n).prev := by simp [run, tick, hst]
      rw [e]
      rcases ih with ⟨h1, h2⟩ | ⟨m, hm, ⟨h0, h1⟩, h2⟩
      · left
        refine ⟨fun m hm => ?_, h2⟩
        by_cases hmn : m = n
        · subst hmn; exact hst
        · exact h1 m (by omega)
      · right
        refine ⟨m, by omega, ⟨h0, fun i hi hin => ?_⟩, h2⟩
        by_cases hmn : i = n
        · subst hmn; exact hst
        · exact h1 i hi (by omega)
    · right
      refine ⟨n, by omega, ⟨hst, fun i h1 h2 => by omega⟩, ?_⟩
      simp only [run, tick, hst, and_true]
      split
      · rfl
      · rename_i h; exact (Decidable.not_not.1 h).symm

/-- C82.  Before the first tick no button is reported. -/
theorem no_button_at_start (inp : Nat → U16 × Bool) (b : Nat) : (run inp 0).pressed b = false := by
  simp [run, AnalogButton.init, State.pressed]

/-- C82.  For every sequence of filtered readings: button `b` is reported in tick `n` exactly if
the reading is stable, lies in the range of button `b`, and the last stable reading before (if
any) did not. -/
theorem button_edges (inp : Nat → U16 × Bool) (n : Nat) {b : Nat} (hb : b ∈ [1, 2, 3]) :
    (run inp (n + 1)).pressed b = true ↔
      (inp n).2 = true ∧ buttonOf (inp n).1 = some b ∧
      ∀ m < n, LastStable inp n m → buttonOf (inp m).1 ≠ some b := by
  have hrange : ∀ x, (buttonOf x = some b ↔ readAnalog x = b) := by
    intro x
    have e1 : kSwitch1Threshold = 173 := by decide
    have e2 : kSwitch2Threshold = 512 := by decide
    have e3 : kSwitch3Threshold = 850 := by decide
    simp only [buttonOf, readAnalog, e1, e2, e3, BitVec.lt_def, show (173 : U16).toNat = 173 from rfl,
      show (512 : U16).toNat = 512 from rfl, show (850 : U16).toNat = 850 from rfl]
    simp only [List.mem_cons, List.not_mem_nil, or_false] at hb
    repeat' split
    all_goals simp
    omega
  have hp : (run inp (n + 1)).pressed b = true ↔
      readAnalog (inp n).1 ≠ (run inp n).prev ∧ (inp n).2 = true ∧ readAnalog (inp n).1 = b := by
    simp only [run, tick]
    split
    · rename_i h
      simp only [List.mem_cons, List.not_mem_nil, or_false] at hb
      rcases hb with rfl | rfl | rfl <;> simp [State.pressed, h.1, h.2]
    · rename_i h
      simp only [List.mem_cons, List.not_mem_nil, or_false] at hb
      rcases hb with rfl | rfl | rfl <;> simp [State.pressed] <;> intro h1 h2 <;>
        exact absurd ⟨h1, h2⟩ h
  rw [hp, hrange]
  constructor
  · rintro ⟨h1, h2, h3⟩
    refine ⟨h2, h3, fun m hm hl => ?_⟩
    rw [Ne, hrange]
    rcases prev_spec inp n with ⟨h4, _⟩ | ⟨m', hm', hl', h4⟩
    · have h6 := hl.1
      rw [h4 m hm] at h6; cases h6
    · have : m = m' := by
        have := hl.2 m'; have := hl'.2 m
        have h5 := hl.1; have h6 := hl'.1
        apply Decidable.byContradiction
        intro hne
        rcases Nat.lt_or_gt_of_ne hne with h | h
        · rw [hl.2 m' h hm'] at h6; cases h6
        · rw [hl'.2 m h hm] at h5; cases h5
      subst this
      rw [← h4, ← h3]; exact fun h => h1 h.symm
  · rintro ⟨h2, h3, h5⟩
    refine ⟨?_, h2, h3⟩
    rcases prev_spec inp n with ⟨_, h4⟩ | ⟨m, hm, hl, h4⟩
    · rw [h4, h3]
      simp only [List.mem_cons, List.not_mem_nil, or_false] at hb
      omega
    · rw [h4, h3]
      have := h5 m hm hl
      rw [Ne, hrange] at this
      exact fun h => this h.symm

/-- Released, pressing button 1 (the falling voltage crosses the range of button 2 while
unstable), holding it, releasing it. -/
example : let inp : Nat → U16 × Bool := fun n =>
      [((1023 : U16), true), (400, false), (10, true), (12, true), (1020, true)].getD n (0, false)
    (List.range 5).map (fun n => [1, 2, 3].map (fun b => (run inp (n + 1)).pressed b)) =
      [[false, false, false], [false, false, false], [true, false, false],
       [false, false, false], [false, false, false]] := by
  decide +kernel

end Buttons
end Firefly.Props
