import Verif.Model.ControllerSetup
import Verif.Lemmas.Setup
import Verif.Lemmas.ControllerExample
import Verif.Props.Controller
import Verif.Props.Battery
import Verif.Props.ClockSync
import Verif.Props.Stability
import Verif.Spec.Clocked

/-! # Switching on the controller and the DMX bridge (C170) -/

namespace Firefly.Props
open Firefly Spec Controller

/-- **C170.** If the radio does not answer, the controller never begins its loop: its first LED is red
for 200 ms and dark for 200 ms, for ever, and all others are dark. -/
theorem controller_without_radio (F : FastLED) (inp : SetupInput) (h : inp.radioOk = false) :
    ∃ frame, Controller.setup F inp = .hangs frame ∧ ∀ (millis : U32) (i : Nat) (hi : i < 42),
      (frame millis)[i] = if i = 0 ∧ millis.toNat / 200 % 2 = 0 then ⟨255, 0, 0⟩ else ⟨0, 0, 0⟩ := by
  refine ⟨fun millis => dark.set 0 ⟨if millis / 200 % 2 = 0 then 255 else 0, 0, 0⟩, ?_, ?_⟩
  · rw [Controller.setup, h]
    rfl
  · intro millis i hi
    have e : millis / 200 % 2 = 0 ↔ millis.toNat / 200 % 2 = 0 := by
      rw [← BitVec.toNat_inj, BitVec.toNat_umod, BitVec.toNat_udiv]
      rfl
    by_cases h0 : i = 0
    · subst h0
      rw [Vector.getElem_set_self]
      by_cases k : millis.toNat / 200 % 2 = 0
      · rw [if_pos (e.2 k), if_pos ⟨rfl, k⟩]
      · rw [if_neg (fun x => k (e.1 x)), if_neg (fun x => k x.2)]
    · rw [Vector.getElem_set_ne _ _ (fun x => h0 x.symm), if_neg (fun x => h0 x.1)]
      simp [dark, CRGB.black]

/-- **C170.** Otherwise `loop` begins: at once and with all LEDs dark if the button is not held; if it
is held, after two seconds in which the left status LED alone is a dim white and five seconds in which it
alone shows the state of charge, a hue from red (0) to green (96), where it stays. -/
theorem controller_with_radio (F : FastLED) (inp : SetupInput) (h : inp.radioOk = true) :
    (inp.held = false → Controller.setup F inp = .begins [] (Vector.replicate 42 ⟨0, 0, 0⟩)) ∧
    (inp.held = true → ∃ white gauge, Controller.setup F inp =
        .begins [(white, 2000), (gauge, 5000)] gauge ∧
      ∀ (i : Nat) (hi : i < 42),
        white[i] = (if i = 7 then F.hsv2rgb ⟨0, 0, 32⟩ else ⟨0, 0, 0⟩) ∧
        ∃ hue : U8, (hue.toNat = if 853 ≤ inp.reading.toNat ∧ inp.reading.toNat ≤ 969 then
            (inp.reading.toNat - 853) * 96 / 116 else 0) ∧
          gauge[i] = if i = 7 then F.hsv2rgb ⟨hue, 255, 255⟩ else ⟨0, 0, 0⟩) := by
  constructor
  · intro k
    rw [Controller.setup, h, k]
    rfl
  · intro k
    refine ⟨_, _, by rw [Controller.setup, h, k]; rfl, ?_⟩
    intro i hi
    refine ⟨?_, Battery.gaugeHue inp.reading, gauge_value inp.reading, ?_⟩ <;>
    · by_cases h7 : i = 7
      · subst h7
        rw [if_pos rfl]
        simp only [kStatusLeft, Vector.getElem_set_self]
      · rw [if_neg h7]
        simp only [kStatusLeft]
        repeat rw [Vector.getElem_set_ne _ _ (fun x => h7 x.symm)]
        simp [dark, CRGB.black]

/-- An iteration in which the controller is awake ticks its state machine; the press of a button may
follow, which does not change who is master, nor the time. -/
theorem controller_tick {env : Env} {inp : Input} {s s' : State} (wf : s.node.WF)
    (ha : Awake s inp) (hl : loop env inp s = .ok s') :
    ∃ node, s.node.tick env.plat inp.now₁ inp.rx₁ inp.now₂ inp.rx₂ = .ok node ∧
      s'.node.state = node.state ∧ s'.node.millisOffset = node.millisOffset ∧
      s'.node.timers.heartbeat = node.timers.heartbeat ∧ s'.node.WF := by
  obtain ⟨node, ht, hm⟩ := loop_ok ha hl
  refine ⟨node, ht, ?_⟩
  have wfn : node.WF := by
    obtain ⟨h'', x', _⟩ := (Exec.nil : Exec env.plat s.node [] s.node).tick ht
    exact x'.wf wf
  have key : ∀ {now p}, s'.node = node ∨ node.setEffect env.plat now p = .ok s'.node →
      s'.node.state = node.state ∧ s'.node.millisOffset = node.millisOffset ∧
      s'.node.timers.heartbeat = node.timers.heartbeat ∧ s'.node.WF := by
    intro now p h
    rcases h with h | h
    · rw [h]
      exact ⟨rfl, rfl, rfl, wfn⟩
    · have wf' : s'.node.WF := Node.step_wf (op := .setEffect now p) wfn h
      rw [Node.setEffect_eq wfn.idx] at h
      split at h
      · cases h
      · injection h with h
        rw [← h] at wf' ⊢
        refine ⟨?_, ?_, ?_, wf'⟩ <;>
        · simp only [Node.afterSetEffect]
          try split
          all_goals rfl
  rcases mode_cases inp with h1 | h1 | h1
  · rw [runMode, modeOf_effect h1] at hm
    obtain ⟨s₁, e, y, z, h2, _, _, _, h3⟩ := runEffectMode_ok hm
    have h4 : s'.node = s₁.node := by rw [h3]
    refine key (now := inp.now) (p := s.setEffectPacket) ?_
    rw [h4]
    unfold select at h2
    by_cases c0 : inp.left.b0 = true
    · rw [if_pos c0] at h2; split at h2
      · cases h2
      · cases h2; exact .inl rfl
    rw [if_neg c0] at h2
    by_cases c1 : inp.right.b0 = true
    · rw [if_pos c1] at h2; split at h2
      · cases h2
      · cases h2; exact .inl rfl
    rw [if_neg c1] at h2
    by_cases c2 : inp.left.b1 = true
    · rw [if_pos c2] at h2; cases h2; exact .inl rfl
    rw [if_neg c2] at h2
    by_cases c3 : inp.right.b1 = true
    · rw [if_pos c3] at h2; cases h2; exact .inl rfl
    rw [if_neg c3] at h2
    by_cases c4 : inp.bottom.b0 = true
    · rw [if_pos c4] at h2
      simp only [bind, Except.bind] at h2
      split at h2
      · cases h2
      · rename_i n hn; cases h2; exact .inr hn
    · rw [if_neg c4] at h2; cases h2; exact .inl rfl
  · rw [runMode, modeOf_colour h1] at hm
    obtain ⟨y, _, _, _, h2, h3⟩ := runColorMode_ok hm
    rcases pressed_cases inp with hn | ⟨side, r, hf⟩
    · exact key (now := 0) (p := s.setEffectPacket) (.inl (h2 hn))
    · exact key (.inr (h3 side r hf))
  · rw [runMode, modeOf_palette h1] at hm
    obtain ⟨y, _, _, _, h2, h3⟩ := runPaletteMode_ok hm
    rcases pressed_cases inp with hn | ⟨side, r, hf⟩
    · exact key (now := 0) (p := s.setEffectPacket) (.inl (h2 hn).1)
    · exact key (.inr (h3 side r hf).2)

theorem controller_waits {env : Env} {t₀ : U32} {rand : Rand} {rng : U16} {gauge : CRGB}
    (hw : t₀.toNat + 7000 < 2 ^ 32) :
    WaitsFor (t₀.toNat + 5000 + rand 0 % 2000) (init env t₀ rand rng gauge).node := by
  have e : (init env t₀ rand rng gauge).node.timers.heartbeat =
      t₀ + BitVec.ofNat 32 (5000 + rand 0 % 2000) := by
    simp only [init, Node.setNumEffects, Node.setNumPalettes, Node.init, Node.beginSlave,
      Node.armSlaveTimeout_eq]
  have hr := Nat.mod_lt (rand 0) (show 2000 > 0 by decide)
  refine ⟨rfl, ?_, by omega⟩
  rw [e, BitVec.toNat_add, BitVec.toNat_ofNat]
  omega

theorem controller_init_wf {env : Env} {t₀ : U32} {rand : Rand} {rng : U16} {gauge : CRGB} :
    (init env t₀ rand rng gauge).node.WF := by
  obtain ⟨_, r⟩ := controller_is_a_node (.nil : Controller.Run env (init env t₀ rand rng gauge) [] _)
  exact r.wf

/-- The radio ticks of a tick. -/
theorem node_tick_steps {plat : Platform} {now₁ now₂ : U32} {rx₁ rx₂ : Option Packet} {s s' : Node}
    (h : s.tick plat now₁ rx₁ now₂ rx₂ = .ok s') : ∃ a, s.radioTick plat now₁ rx₁ = .ok a ∧
      (a.tickRun = false → s' = { a with tickRun := true }) ∧
      (a.tickRun = true → ∃ b, a.radioTick plat now₂ rx₂ = .ok b ∧ s' = { b with tickRun := true }) := by
  simp only [Node.tick, bind, Except.bind, pure, Except.pure] at h
  split at h
  · cases h
  · rename_i a ha
    refine ⟨a, ha, ?_, ?_⟩
    · intro k
      rw [k] at h
      simp only [Bool.false_eq_true, if_false] at h
      cases h
      rfl
    · intro k
      rw [k] at h
      simp only [if_true] at h
      split at h
      · cases h
      · rename_i b hb
        cases h
        exact ⟨b, hb, rfl⟩

/-- The first iteration. -/
theorem controller_first {env : Env} {t₀ : U32} {rand : Rand} {rng : U16} {gauge : CRGB}
    {inp : Input} {s : State} (hp : env.plat = .arduino)
    (ha : Awake (init env t₀ rand rng gauge) inp)
    (hl : loop env inp (init env t₀ rand rng gauge) = .ok s) :
    ∃ a, (init env t₀ rand rng gauge).node.radioTick .arduino inp.now₁ inp.rx₁ = .ok a ∧
      s.node.state = a.state ∧ s.node.millisOffset = a.millisOffset ∧
      s.node.timers.heartbeat = a.timers.heartbeat ∧ s.node.WF := by
  obtain ⟨node, ht, h1, h2, h3, h4⟩ := controller_tick controller_init_wf ha hl
  rw [hp] at ht
  obtain ⟨a, ha', hs, -⟩ := node_tick_steps ht
  have hr : a.tickRun = false := radioTick_tickRun controller_init_wf ha'
  have hs := hs hr
  rw [hs] at h1 h2 h3
  exact ⟨a, ha', h1, h2, h3, h4⟩

/-- **C170.** A controller that begins its loop in the first five seconds stays a slave in its first
iteration, whatever it hears. -/
theorem controller_listens_first {env : Env} {t₀ : U32} {rand : Rand} {rng : U16} {gauge : CRGB}
    {inp : Input} {s : State} (hp : env.plat = .arduino) (hw : t₀.toNat + 7000 < 2 ^ 32)
    (ha : Awake (init env t₀ rand rng gauge) inp) (hsoon : inp.now₁.toNat ≤ t₀.toNat + 5000)
    (hl : loop env inp (init env t₀ rand rng gauge) = .ok s) : s.node.getCurrentState = .slave := by
  obtain ⟨a, h, hs, -⟩ := controller_first hp ha hl
  have w : WaitsFor (t₀.toNat + 5000 + rand 0 % 2000) (init env t₀ rand rng gauge).node :=
    controller_waits hw
  show s.node.state = .slave
  rw [hs]
  have w1 := w.1
  have w2 := w.2.1
  revert h w1 w2
  have wf : (init env t₀ rand rng gauge).node.WF := controller_init_wf
  revert wf
  generalize (init env t₀ rand rng gauge).node = n
  intro wf h w1 w2
  cases hd : n.delivered inp.rx₁ with
  | none =>
    have q := quiet_slave wf w1 hd h
    have hn : a.state ≠ .master := by
      intro k
      have k' := BitVec.lt_def.1 (q.1.1 k).2
      omega
    rw [q.2 hn]
    exact w1
  | some p =>
    cases Node.radioTick_cases wf h with
    | slaveQuiet e | masterQuiet e | takeOver e | beat e | change e | «repeat» e => rw [hd] at e; cases e
    | slaveHeartbeat q e | slaveClaim q e => simpa [Node.armSlaveTimeout_eq, Node.afterAccept] using w1
    | slaveEffect q e => simpa [Node.afterSlaveEffect] using w1
    | slaveControl q e => exact w1
    | other q n k e => exact w1
    | electionWon _ _ e | electionLost _ _ e | masterClaim _ _ e | masterEffect _ _ e
    | masterControl _ _ e => rw [w1] at e; cases e

/-- **C170 (refutation: that a controller listens before it takes over).** A controller switched on with
the button held, whatever its random numbers, turns master in its first iteration if the radio has nothing
for it; and if the radio has some packet for it that is neither a heartbeat nor a claim, such as the
master's instruction, then as soon as the radio has nothing more. -/
theorem held_controller_takes_over {env : Env} {t₀ : U32} {rand : Rand} {rng : U16} {gauge : CRGB}
    {inp₀ : SetupInput} {frames : List (Leds × Nat)} {leds : Leds} {inp : Input} {s : State}
    (hp : env.plat = .arduino) (hw : t₀.toNat + 7000 < 2 ^ 32)
    (hset : Controller.setup env.F inp₀ = .begins frames leds) (hheld : inp₀.held = true)
    (hfirst : t₀.toNat + (frames.map (·.2)).sum ≤ inp.now₁.toNat)
    (ha : Awake (init env t₀ rand rng gauge) inp)
    (hl : loop env inp (init env t₀ rand rng gauge) = .ok s) :
    (inp.rx₁ = none → s.node.getCurrentState = .master) ∧
    ∀ p, inp.rx₁ = some p → p.type ≠ .heartbeat → p.type ≠ .claimMaster →
      ∀ (inp' : Input) (s' : State), inp.now₁ ≤ inp'.now₁ → Awake s inp' →
        inp'.rx₁ = none → inp'.rx₂ = none → loop env inp' s = .ok s' →
        s'.node.getCurrentState = .master := by
  have hsum : (frames.map (·.2)).sum = 7000 := by
    cases hr : inp₀.radioOk with
    | false =>
      obtain ⟨f, e, -⟩ := controller_without_radio env.F inp₀ hr
      rw [hset] at e
      cases e
    | true =>
      obtain ⟨_, _, e, -⟩ := (controller_with_radio env.F inp₀ hr).2 hheld
      rw [hset] at e
      injection e with e
      rw [e]
      rfl
  rw [hsum] at hfirst
  have hlate : t₀.toNat + 5000 + rand 0 % 2000 < inp.now₁.toNat := by
    have hr := Nat.mod_lt (rand 0) (show 2000 > 0 by decide)
    omega
  have w : WaitsFor (t₀.toNat + 5000 + rand 0 % 2000) (init env t₀ rand rng gauge).node :=
    controller_waits hw
  obtain ⟨a, h, hs, -, hb, wfs⟩ := controller_first hp ha hl
  refine ⟨?_, ?_⟩
  · intro hq
    rw [hq] at h
    have k : a.state = .master := w.quiet controller_init_wf rfl hlate h
    exact hs.trans k
  · intro p hq hp1 hp2 inp' s' hle ha' hq1 hq2 hl'
    rw [hq] at h
    have hnode : WaitsFor (t₀.toNat + 5000 + rand 0 % 2000) s.node ∨ s.node.state = .master := by
      cases hd : (init env t₀ rand rng gauge).node.delivered (some p) with
      | none =>
        have k : a.state = .master := w.quiet controller_init_wf hd hlate h
        exact .inr (hs.trans k)
      | some q =>
        have hqp : q = p := by
          simp only [Node.delivered] at hd
          split at hd
          · cases hd
          · injection hd with hd
            exact hd.symm
        subst hqp
        have k : WaitsFor (t₀.toNat + 5000 + rand 0 % 2000) a :=
          w.other controller_init_wf hd hp1 hp2 h
        exact .inl ⟨hs.trans k.1, by rw [hb]; exact k.2.1, k.2.2⟩
    obtain ⟨node, ht, h1, -⟩ := controller_tick wfs ha' hl'
    rw [hp, hq1, hq2] at ht
    obtain ⟨b, g1, g2, g3⟩ := node_tick_steps ht
    have hl2 : t₀.toNat + 5000 + rand 0 % 2000 < inp'.now₁.toNat := by
      have := BitVec.le_def.1 hle
      omega
    have hbm : b.state = .master := by
      rcases hnode with k | k
      · exact k.quiet wfs rfl hl2 g1
      · exact master_quiet k wfs rfl g1
    have wfb : b.WF := Node.step_wf (op := .radioTick _ _) wfs g1
    show s'.node.state = .master
    rw [h1]
    cases hr : b.tickRun with
    | false => rw [g2 hr]; exact hbm
    | true =>
      obtain ⟨c, k2, k3⟩ := g3 hr
      have k : c.state = .master := master_quiet hbm wfb rfl k2
      rw [k3]
      exact k

theorem stale_sum (now δ o y : U32) : y + (now - δ + o - now) = y + o - δ := by bv_omega

/-- **C170.** The heartbeat that such a controller reads first may have waited in the radio for some time
`δ`.  Then the network time of the controller is behind that of the sender (its clock plus `o`) by `δ`. -/
theorem stale_heartbeat {env : Env} {t₀ : U32} {rand : Rand} {rng : U16} {gauge : CRGB}
    {inp : Input} {s : State} (hp : env.plat = .arduino)
    (ha : Awake (init env t₀ rand rng gauge) inp)
    (hl : loop env inp (init env t₀ rand rng gauge) = .ok s) {p : Packet} (hrx : inp.rx₁ = some p)
    (hid : p.id ≠ 0) {o δ : U32} (hT : SaysTime p (inp.now₁ - δ + o)) (y : U32) :
    s.node.getNetworkMillis y = y + o - δ := by
  obtain ⟨a, h, -, ho, -⟩ := controller_first hp ha hl
  rw [hrx] at h
  have hd : (init env t₀ rand rng gauge).node.delivered (some p) = some p := by
    have hc : (init env t₀ rand rng gauge).node.nm = NM.init := by
      simp only [init, Node.setNumEffects, Node.setNumPalettes, Node.init, Node.beginSlave,
        Node.armSlaveTimeout_eq]
    simp only [Node.delivered, hc]
    rw [if_neg]
    simpa [NM.init] using hid
  have e := slave_sync (p := p) controller_init_wf hd rfl hT.1 h
  have e' : p.timeField = inp.now₁ - δ + o := by
    apply BitVec.eq_of_toNat_eq
    rw [hT.2, timeField_bigEndian]
    rfl
  rw [Node.getNetworkMillis, ho, e, e']
  exact stale_sum _ _ _ _

/-- **C170.** The DMX bridge, if its radio does not answer: the LED is dark and lit for 100 ms by turns, for
ever. -/
theorem dmx_without_radio (k : Nat) : Dmx.failureLed k = decide (k % 2 = 1) := by
  induction k with
  | zero => rfl
  | succ k ih =>
    rw [Dmx.failureLed, ih]
    rcases Nat.mod_two_eq_zero_or_one k with h | h
    · rw [h, Nat.succ_mod_two_eq_one_iff.2 h]; rfl
    · rw [h, Nat.succ_mod_two_eq_zero_iff.2 h]; rfl

/-! ### Concrete case -/

/-- The controller of the examples, switched on at 1000 with the button held: it shows the gauge until 8000
and turns master in its first iteration. -/
theorem held_controller_demo : ∃ leds frames s,
    Controller.setup Demo.env.F ⟨true, true, 900⟩ = .begins frames leds ∧
    (init Demo.env 1000 (fun _ => 7) 1337 ⟨38, 255, 255⟩).leds = leds ∧
    (frames.map (·.2)).sum = 7000 ∧
    Awake (init Demo.env 1000 (fun _ => 7) 1337 ⟨38, 255, 255⟩) (Demo.quiet 8000 800) ∧
    loop Demo.env (Demo.quiet 8000 800) (init Demo.env 1000 (fun _ => 7) 1337 ⟨38, 255, 255⟩) = .ok s ∧
    s.node.getCurrentState = .master := by
  obtain ⟨s, hl⟩ := controller_never_faults rfl Demo.env_shipped
    (.nil : Controller.Run Demo.env (init Demo.env 1000 (fun _ => 7) 1337 ⟨38, 255, 255⟩) [] _)
    (Demo.quiet 8000 800)
  have hset : ∃ frames leds, Controller.setup Demo.env.F ⟨true, true, 900⟩ = .begins frames leds ∧
      (init Demo.env 1000 (fun _ => 7) 1337 ⟨38, 255, 255⟩).leds = leds ∧
      (frames.map (·.2)).sum = 7000 := ⟨_, _, rfl, by decide +kernel, rfl⟩
  obtain ⟨frames, leds, e, e', e''⟩ := hset
  have ha : Awake (init Demo.env 1000 (fun _ => 7) 1337 ⟨38, 255, 255⟩) (Demo.quiet 8000 800) := by
    unfold Awake
    decide +kernel
  exact ⟨leds, frames, s, e, e', e'', ha, hl,
    (held_controller_takes_over rfl (by decide) e rfl (by rw [e'']; decide) ha hl).1 rfl⟩

/-- A heartbeat that says 500000 and has waited in the radio for 3 s is met by these hypotheses. -/
example : SaysTime ⟨5, .heartbeat, 4, (((Vector.replicate 58 0).set 1 7).set 2 0xA1).set 3 0x20⟩
    (8000 - 3000 + 495000) := by
  unfold SaysTime
  decide +kernel

end Firefly.Props
