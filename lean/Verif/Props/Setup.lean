import Verif.Spec.Setup
import Verif.Lemmas.Setup
import Verif.Props.Startup
import Verif.Props.Board

/-! # Switching on a board (C169) -/

namespace Firefly.Props
open Spec

/-- **C169.** If the radio does not answer, the board never begins its loop (so it never sends
anything and never shows an effect): all its LEDs are red for 100 ms and dark for 100 ms, for ever. -/
theorem setup_without_radio (F : FastLED) (program : Board.Program) (device : Device)
    (inp : Setup.Input) (h : inp.radioOk = false) :
    ∃ frame, Setup.run F program device inp = .ok (.hangs frame) ∧
      ∀ k, (frame k).2 = 100 ∧ (frame k).1.length = device.getLedCount.toNat + 1 ∧
        ∀ c ∈ (frame k).1, c = if k % 2 = 0 then ⟨64, 0, 0⟩ else ⟨0, 0, 0⟩ := by
  refine ⟨Setup.fatalFrame device, ?_, ?_⟩
  · simp only [Setup.run, h]
    rfl
  · intro k
    refine ⟨rfl, by simp [Setup.fatalFrame, FastLedManager.newLeds], ?_⟩
    intro c hc
    exact (List.mem_replicate.1 hc).2

/-- **C169.** Otherwise a board with at least one LED begins its loop with all LEDs dark, after the
start-up animation; the fancy node with a button held lights only its on-board LED (a dim white)
for two seconds before that, and takes the reading of the battery. -/
theorem setup_with_radio (F : FastLED) (program : Board.Program) (device : Device)
    (inp : Setup.Input) (h : inp.radioOk = true) (hn : device.getLedCount ≠ 0) :
    Setup.run F program device inp = .ok (.begins
      ((if Held program inp then
          [(F.hsv2rgb ⟨0, 0, 32⟩ :: List.replicate device.getLedCount.toNat ⟨0, 0, 0⟩, 2000)]
        else []) ++ startupFrames F device.getLedCount.toNat)
      (if Held program inp then inp.reading else 0)
      (List.replicate (device.getLedCount.toNat + 1) ⟨0, 0, 0⟩)) := by
  have hl : (FastLedManager.newLeds device).length = device.getLedCount.toNat + 1 := by
    simp [FastLedManager.newLeds]
  obtain ⟨_, e, rfl⟩ := startup_frames_from F device hn (FastLedManager.newLeds device) hl
  obtain ⟨_, e', rfl⟩ := startup_frames_from F device hn
    ((FastLedManager.newLeds device).set 0 (F.hsv2rgb ⟨0, 0, 32⟩)) (by rw [List.length_set, hl])
  have hset : (FastLedManager.newLeds device).set 0 (F.hsv2rgb ⟨0, 0, 32⟩) =
      F.hsv2rgb ⟨0, 0, 32⟩ :: List.replicate device.getLedCount.toNat ⟨0, 0, 0⟩ := by
    rw [FastLedManager.newLeds, List.replicate_succ, List.set_cons_zero]
    rfl
  rw [hset] at e'
  cases program with
  | node =>
    rw [if_neg (fun k => by cases k.1), if_neg (fun k => by cases k.1)]
    simp only [Setup.run, h, Bool.not_true, Bool.false_eq_true, if_false, e, bind, Except.bind, pure,
      Except.pure, List.nil_append]
  | fancyNode =>
    by_cases hh : Held .fancyNode inp
    · rw [if_pos hh, if_pos hh]
      simp only [Setup.run, h, Bool.not_true, Bool.false_eq_true, if_false, hh.2.1, hh.2.2,
        Bool.and_self, if_true, hset, e', bind, Except.bind, pure, Except.pure, List.cons_append,
        List.nil_append]
    · rw [if_neg hh, if_neg hh]
      have : (inp.pressed && inp.stillPressed) = false := by
        rw [← Bool.not_eq_true]
        intro k
        rw [Bool.and_eq_true] at k
        exact hh ⟨rfl, k.1, k.2⟩
      simp only [Setup.run, h, Bool.not_true, Bool.false_eq_true, if_false, this, e, bind, Except.bind,
        pure, Except.pure, List.nil_append]

/-- **C169.** How long that takes. -/
theorem setup_duration {F : FastLED} {program : Board.Program} {device : Device} {inp : Setup.Input}
    {frames : List (List CRGB × Nat)} {atBoot : U16} {leds : List CRGB}
    (h : Setup.run F program device inp = .ok (.begins frames atBoot leds)) :
    let n := device.getLedCount.toNat
    n ≠ 0 ∧ shownFor frames =
      (if Held program inp then 2000 else 0) + 2 * n * max (500 / n) (n / 30 + 1) +
        256 * (n / 30 + 1) := by
  have hr : inp.radioOk = true := by
    cases hk : inp.radioOk with
    | true => rfl
    | false =>
      obtain ⟨f, e, _⟩ := setup_without_radio F program device inp hk
      rw [h] at e
      cases e
  have hn : device.getLedCount ≠ 0 := by
    intro k
    have e := startup_without_leds F device k
    have hs : FastLedManager.startup F device
        ((FastLedManager.newLeds device).set 0 (F.hsv2rgb ⟨0, 0, 32⟩)) = .error .divByZero := by
      simp only [FastLedManager.startup, k]
      rfl
    cases program with
    | node =>
      simp [Setup.run, hr, e, bind, Except.bind] at h
    | fancyNode =>
      simp only [Setup.run, hr, Bool.not_true, Bool.false_eq_true, if_false, e, hs, bind,
        Except.bind] at h
      split at h <;> cases h
  have hn' : device.getLedCount.toNat ≠ 0 := fun k => hn (BitVec.eq_of_toNat_eq k)
  refine ⟨hn', ?_⟩
  rw [setup_with_radio F program device inp hr hn] at h
  cases h
  have d := (startup_duration F (n := device.getLedCount.toNat) (by omega)
    (by have := device.getLedCount.isLt; omega)).1
  rw [shownFor, List.map_append, List.sum_append, d]
  split
  · simp only [List.map_cons, List.map_nil, List.sum_cons, List.sum_nil]
    omega
  · simp only [List.map_nil, List.sum_nil]
    omega

/-- **C169.** So the state of charge is only ever shown by a fancy node on which a button was held at
both moments. -/
theorem gauge_needs_button {F : FastLED} {program : Board.Program} {device : Device}
    {inp : Setup.Input} {frames : List (List CRGB × Nat)} {atBoot : U16} {leds : List CRGB}
    (h : Setup.run F program device inp = .ok (.begins frames atBoot leds))
    (hh : ¬ Held program inp) (millis : U32) :
    Battery.onboardLed F atBoot millis = ⟨0, 0, 0⟩ := by
  have hr : inp.radioOk = true := by
    cases hk : inp.radioOk with
    | true => rfl
    | false =>
      obtain ⟨f, e, _⟩ := setup_without_radio F program device inp hk
      rw [h] at e
      cases e
  have hn := (setup_duration h).1
  rw [setup_with_radio F program device inp hr (fun k => hn (by rw [k]; rfl)), if_neg hh, if_neg hh] at h
  cases h
  rfl

theorem outlasts : ∀ n : Fin 256, n.val ≠ 0 → ∀ held : Bool,
    (5000 < (if held then 2000 else 0) + 2 * n.val * max (500 / n.val) (n.val / 30 + 1) +
      256 * (n.val / 30 + 1) ↔ 210 ≤ n.val ∨ held = true ∧ 150 ≤ n.val) ∧
    (5000 < (if held then 2000 else 0) + 2 * n.val * max (500 / n.val) (n.val / 30 + 1) +
      256 * (n.val / 30 + 1) → 5336 ≤ (if held then 2000 else 0) +
        2 * n.val * max (500 / n.val) (n.val / 30 + 1) + 256 * (n.val / 30 + 1)) := by decide +kernel

/-- **C169.** The set-up of a board takes longer than the least time-out of a slave, 5 s, exactly if it has
210 LEDs or more, or 150 or more and a button is held. -/
theorem setup_outlasts_timeout_iff {F : FastLED} {program : Board.Program} {device : Device}
    {inp : Setup.Input} {frames : List (List CRGB × Nat)} {atBoot : U16} {leds : List CRGB}
    (h : Setup.run F program device inp = .ok (.begins frames atBoot leds)) :
    5000 < shownFor frames ↔
      210 ≤ device.getLedCount.toNat ∨ Held program inp ∧ 150 ≤ device.getLedCount.toNat := by
  obtain ⟨hn, d⟩ := setup_duration h
  have o := (outlasts ⟨device.getLedCount.toNat, device.getLedCount.isLt⟩ hn
    (decide (Held program inp))).1
  simp only [decide_eq_true_eq] at o
  rw [d]
  exact o

/-- **C169.** The shipped devices: all but the backpack rope are ready at least 440 ms before the least
time-out, and 2440 ms if no button is held; the rope is ready 520 ms before it, but 1480 ms after it if
a button is held. -/
theorem shipped_setup {x : String × Device} (hx : x ∈ Devices.catalogue) {F : FastLED}
    {program : Board.Program} {inp : Setup.Input} {frames : List (List CRGB × Nat)} {atBoot : U16}
    {leds : List CRGB} (h : Setup.run F program x.2 inp = .ok (.begins frames atBoot leds)) :
    (x.1 ≠ "backpack_rope" → shownFor frames ≤ (if Held program inp then 4560 else 2560)) ∧
    (x.1 = "backpack_rope" → shownFor frames = if Held program inp then 6480 else 4480) := by
  obtain ⟨-, d⟩ := setup_duration h
  have key : ∀ x ∈ Devices.catalogue,
      (x.1 ≠ "backpack_rope" → 2 * x.2.getLedCount.toNat *
        max (500 / x.2.getLedCount.toNat) (x.2.getLedCount.toNat / 30 + 1) +
          256 * (x.2.getLedCount.toNat / 30 + 1) ≤ 2560) ∧
      (x.1 = "backpack_rope" → 2 * x.2.getLedCount.toNat *
        max (500 / x.2.getLedCount.toNat) (x.2.getLedCount.toNat / 30 + 1) +
          256 * (x.2.getLedCount.toNat / 30 + 1) = 4480) := by decide +kernel
  obtain ⟨k1, k2⟩ := key x hx
  rw [d, Nat.add_assoc]
  clear d key h hx
  generalize x.2.getLedCount.toNat = n at *
  constructor
  · intro e
    split
    · exact Nat.add_le_add_left (k1 e) 2000
    · rw [Nat.zero_add]
      exact k1 e
  · intro e
    rw [k2 e]
    split <;> rfl

/-- **C169 (refutation: that a board listens before it takes over).** A board that begins its loop after its
first time-out (5000 ms and a random part of up to 1999 ms after power-up), and whose battery is not low,
turns master in its first iteration if the radio has nothing for it; and if the radio has some packet for
it that is neither a heartbeat nor a claim, such as the master's instruction, then as soon as the radio has
nothing more. -/
theorem late_board_takes_over {env : Board.Env} {t₀ : U32} {rand : Rand} {inp : Board.Input}
    {s : Board.State} (hw : t₀.toNat + 7000 < 2 ^ 32)
    (hlate : t₀.toNat + 5000 + rand 0 % 2000 < inp.first.now.toNat)
    (hbat : env.program = .fancyNode → Battery.rawReading 3600 ≤ inp.battery.value)
    (h : Board.loop env inp (Board.init env t₀ rand) = .ok s) :
    (inp.first.packet = .ok none → s.node.getCurrentState = .master) ∧
    ∀ p, inp.first.packet = .ok (some p) → p.type ≠ .heartbeat → p.type ≠ .claimMaster →
      ∀ (inp' : Board.Input) (s' : Board.State), inp.first.now ≤ inp'.first.now →
        (env.program = .fancyNode → Battery.rawReading 3600 ≤ inp'.battery.value) →
        inp'.first.packet = .ok none → inp'.second.packet = .ok none →
        Board.loop env inp' s = .ok s' → s'.node.getCurrentState = .master := by
  have bat : ∀ (i : Battery.Input), Battery.rawReading 3600 ≤ i.value →
      (Battery.step .fancyNode false i).active = true ∧ (Battery.step .fancyNode false i).low = false := by
    intro i hi
    have hk : decide (i.value < Battery.rawReading (Battery.Kind.lowCutoff .fancyNode)) = false := by
      rw [decide_eq_false_iff_not, BitVec.lt_def]
      have := BitVec.le_def.1 hi
      show ¬ i.value.toNat < (Battery.rawReading 3600).toNat
      omega
    simp only [Battery.step, hk]
    cases i.expired <;> exact ⟨rfl, rfl⟩
  have w : WaitsFor (t₀.toNat + 5000 + rand 0 % 2000) (Board.init env t₀ rand).node := board_waits hw
  have r₀ : Firefly.Run .arduino t₀ _ (Board.init env t₀ rand).node :=
    (board_is_a_node (.nil : Board.Run env (Board.init env t₀ rand) [] _)).choose_spec.1
  have wf := r₀.wf
  obtain ⟨fs, ht, hlow⟩ := loop_tick (fun k => (bat _ (hbat k)).1) h
  obtain ⟨rx, a, h1, h2, h3, -⟩ := tick_steps ht
  have ha : a.tickRun = false := radioTick_tickRun wf h2
  have hs := h3 ha
  have wfa : a.WF := Node.step_wf (op := .radioTick _ _) wf h2
  have quiet : ∀ {s : Node}, s.delivered none = none := rfl
  refine ⟨?_, ?_⟩
  · intro hp
    rw [hp] at h1
    cases h1
    have k : a.state = .master := w.quiet wf quiet hlate h2
    rw [hs]
    exact k
  · intro p hp hp1 hp2 inp' s' hle hbat' hq1 hq2 h'
    rw [hp] at h1
    cases h1
    have wfs : s.node.WF := by rw [hs]; exact ⟨wfa.1, wfa.2, wfa.3⟩
    have hnode : WaitsFor (t₀.toNat + 5000 + rand 0 % 2000) s.node ∨ s.node.state = .master := by
      rw [hs]
      cases hd : (Board.init env t₀ rand).node.delivered (some p) with
      | none =>
        have k : a.state = .master := w.quiet wf hd hlate h2
        exact .inr k
      | some q =>
        have hq : q = p := by
          simp only [Node.delivered] at hd
          split at hd
          · cases hd
          · injection hd with hd
            exact hd.symm
        subst hq
        have k : WaitsFor _ a := w.other wf hd hp1 hp2 h2
        exact .inl k
    have hlow' : env.program = .fancyNode → s.low = false := fun k =>
      (hlow k).trans (bat _ (hbat k)).2
    obtain ⟨fs', ht', -⟩ := loop_tick
      (fun k => by rw [hlow' k]; exact (bat _ (hbat' k)).1) h'
    obtain ⟨rx', b, g1, g2, g3, g4⟩ := tick_steps ht'
    rw [hq1] at g1
    cases g1
    have hl : t₀.toNat + 5000 + rand 0 % 2000 < inp'.first.now.toNat := by
      have := BitVec.le_def.1 hle
      omega
    have hb : b.state = .master := by
      rcases hnode with k | k
      · exact k.quiet wfs quiet hl g2
      · exact master_quiet k wfs quiet g2
    have wfb : b.WF := Node.step_wf (op := .radioTick _ _) wfs g2
    cases hr : b.tickRun with
    | false => rw [g3 hr]; exact hb
    | true =>
      obtain ⟨rx'', c, k1, k2, k3⟩ := g4 hr
      rw [hq2] at k1
      cases k1
      have k : c.state = .master := master_quiet hb wfb quiet k2
      rw [k3]
      exact k

/-- **C169.** That concerns the boards of `setup_outlasts_timeout_iff`, for one in six random numbers or
more. -/
theorem large_board_takes_over {env : Board.Env} {t₀ : U32} {rand : Rand} {inp₀ : Setup.Input}
    {frames : List (List CRGB × Nat)} {leds : List CRGB} {inp : Board.Input} {s : Board.State}
    (hset : Setup.run env.F env.program env.device inp₀ = .ok (.begins frames env.atBoot leds))
    (hlarge : 210 ≤ env.device.getLedCount.toNat ∨
      Held env.program inp₀ ∧ 150 ≤ env.device.getLedCount.toNat)
    (hw : t₀.toNat + 7000 < 2 ^ 32) (hr : rand 0 % 2000 < 336) (hf : FirstLoop t₀ frames inp)
    (hbat : env.program = .fancyNode → Battery.rawReading 3600 ≤ inp.battery.value)
    (h : Board.loop env inp (Board.init env t₀ rand) = .ok s)
    (hq : inp.first.packet = .ok none) : s.node.getCurrentState = .master := by
  have h5 := (setup_outlasts_timeout_iff hset).2 hlarge
  obtain ⟨hn, d⟩ := setup_duration hset
  have o := (outlasts ⟨env.device.getLedCount.toNat, env.device.getLedCount.isLt⟩ hn
    (decide (Held env.program inp₀))).2
  simp only [decide_eq_true_eq] at o
  rw [d] at h5
  have o := o h5
  have hf : t₀.toNat + shownFor frames ≤ inp.first.now.toNat := hf
  rw [d] at hf
  exact (late_board_takes_over hw (by omega) hbat h).1 hq

/-! ### Concrete case -/

/-- The backpack rope on a fancy node, switched on with a button held at time 0: it shows frames for 6480 ms
and turns master in the first iteration of its loop. -/
theorem rope_takes_over : ∃ (env : Board.Env) (inp₀ : Setup.Input) (frames : List (List CRGB × Nat))
    (leds : List CRGB) (inp : Board.Input) (s : Board.State),
    ("backpack_rope", env.device) ∈ Devices.catalogue ∧
    Setup.run env.F env.program env.device inp₀ = .ok (.begins frames env.atBoot leds) ∧
    shownFor frames = 6480 ∧ env.atBoot = 700 ∧ FirstLoop 0 frames inp ∧
    Board.loop env inp (Board.init env 0 (fun _ => 123)) = .ok s ∧ s.node.getCurrentState = .master := by
  let rope : Device := ⟨Devices.rfBoardMaSupported, [Strip.new 96 [.dim], Strip.new 96 [.dim, .reversed]]⟩
  let env : Board.Env := { Board.Demo.env .fancyNode with device := rope, atBoot := 700 }
  let inp₀ : Setup.Input := ⟨true, true, true, 700⟩
  have hc : ("backpack_rope", rope) ∈ Devices.catalogue := by
    simp only [Devices.catalogue, List.mem_cons, List.mem_nil_iff, or_false, true_or, or_true, rope]
  have hh : Held .fancyNode inp₀ := ⟨rfl, rfl, rfl⟩
  have hn : rope.getLedCount ≠ 0 := by decide
  have hset := setup_with_radio FastLED.reference .fancyNode rope inp₀ rfl hn
  rw [if_pos hh] at hset
  have ht : totalLeds rope = 192 := by decide
  have hd := (shipped_setup hc hset).2 rfl
  rw [if_pos hh] at hd
  let inp := Board.Demo.input 6500 900 none none
  obtain ⟨s, hl, -⟩ := board_iteration (env := env) (Board.Demo.env_shipped .fancyNode)
    (by show 1 ≤ totalLeds rope; rw [ht]; decide) (by show totalLeds rope ≤ 255; rw [ht]; decide)
    (by decide) (s := Board.init env 0 (fun _ => 123)) (init_good (Board.Demo.env_shipped .fancyNode)) rfl inp
    (by intro f hf; simp [offered, inp, Board.Demo.input, Board.Demo.listen] at hf)
  refine ⟨env, inp₀, _, _, inp, s, hc, hset, hd, rfl, ?_, hl, ?_⟩
  · rw [FirstLoop, hd]
    decide
  · exact (late_board_takes_over (by decide) (by decide) (fun _ => by decide) hl).1 rfl

end Firefly.Props
