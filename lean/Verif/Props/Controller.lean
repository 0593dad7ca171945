import Verif.Lemmas.ControllerExample
import Verif.Props.Robust

/-! # Properties of the hand-held controller -/

namespace Firefly.Props
open Firefly Spec Controller

variable {env : Env} {seeds : EffectSeeds}

/-! ## C73: selection -/

/-- C73: one iteration.  In effect mode the selection moves as the buttons say, cyclically
through the 19 effects and 22 palettes; otherwise it does not change. -/
theorem selection_step (hreg : shippedRegistry env.plat seeds = .ok env.registry)
    {s s' : State} {inp : Input} (he : s.effectIndex.toNat < 19) (hp : s.paletteIndex.toNat < 22)
    (h : loop env inp s = .ok s') :
    (Awake s inp ∧ EffectMode inp → (s'.effectIndex.toNat, s'.paletteIndex.toNat) =
      selectionAfter 19 22 inp (s.effectIndex.toNat, s.paletteIndex.toNat)) ∧
    (¬ (Awake s inp ∧ EffectMode inp) →
      s'.effectIndex = s.effectIndex ∧ s'.paletteIndex = s.paletteIndex) := by
  by_cases ha : Awake s inp
  · obtain ⟨node, ht, hm⟩ := loop_ok ha h
    by_cases hme : EffectMode inp
    · refine ⟨fun _ => ?_, fun hn => absurd ⟨ha, hme⟩ hn⟩
      rw [runMode, modeOf_effect hme] at hm
      obtain ⟨s₁, e, x, y, h1, _, _, _, h2⟩ := runEffectMode_ok hm
      rw [h2]
      exact (select_ok (shipped_of hreg) (s := entered inp s node) he hp h1).1
    · refine ⟨fun hn => absurd hn.2 hme, fun _ => ?_⟩
      rcases mode_cases inp with h1 | h1 | h1
      · exact absurd h1 hme
      · rw [runMode, modeOf_colour h1] at hm
        obtain ⟨x, _, _, h2, _⟩ := runColorMode_ok hm
        rw [h2]; exact ⟨rfl, rfl⟩
      · rw [runMode, modeOf_palette h1] at hm
        obtain ⟨x, _, _, h2, _⟩ := runPaletteMode_ok hm
        rw [h2]; exact ⟨rfl, rfl⟩
  · refine ⟨fun hn => absurd hn.1 ha, fun _ => ?_⟩
    rw [loop_asleep ha] at h
    cases h
    exact ⟨rfl, rfl⟩

theorem selectionAfter_lt {inp : Input} {sel : Nat × Nat} (he : sel.1 < 19) (hp : sel.2 < 22) :
    (selectionAfter 19 22 inp sel).1 < 19 ∧ (selectionAfter 19 22 inp sel).2 < 22 := by
  unfold selectionAfter nextOf prevOf
  repeat' split
  all_goals first | exact ⟨he, hp⟩ | (constructor <;> dsimp only <;> omega)

/-- C73: after every sequence of iterations the selection names an existing effect and an
existing palette. -/
theorem selection_valid (hreg : shippedRegistry env.plat seeds = .ok env.registry)
    {t₀ rand rng gauge h s} (r : Controller.Run env (init env t₀ rand rng gauge) h s) :
    s.effectIndex.toNat < 19 ∧ s.paletteIndex.toNat < 22 := by
  induction r with
  | nil => exact ⟨(by decide : (0 : U8).toNat < 19), (by decide : (0 : U8).toNat < 22)⟩
  | @cons h s s' inp _ hl ih =>
    obtain ⟨h1, h2⟩ := selection_step hreg ih.1 ih.2 hl
    by_cases hc : Awake s inp ∧ EffectMode inp
    · have h3 := selectionAfter_lt (inp := inp) (sel := (s.effectIndex.toNat, s.paletteIndex.toNat))
        ih.1 ih.2
      rw [← h1 hc] at h3
      exact h3
    · rw [(h2 hc).1, (h2 hc).2]; exact ih

/-- A concrete case: two presses in effect mode select effect 1 and palette 21. -/
example : ∃ h s, Controller.Run Demo.env Demo.start h s ∧ s.effectIndex = 1 ∧ s.paletteIndex = 21 := by
  obtain ⟨h, s, r, c⟩ := Demo.run_of_check
    (l := [{ Demo.quiet 1100 900 with right := Demo.first3 },
      { Demo.quiet 1050 900 with left := Demo.second3 }])
    (fun _ s => decide (s.effectIndex = 1 ∧ s.paletteIndex = 21)) (by decide +kernel)
  exact ⟨h, s, r, of_decide_eq_true c⟩

/-- C73: going back undoes going forward, and conversely; `k` steps forward reach the `k`-th
following choice modulo the number of choices, so every choice can be reached. -/
theorem selection_cycle {n i : Nat} (hi : i < n) :
    prevOf n (nextOf n i) = i ∧ nextOf n (prevOf n i) = i ∧
      ∀ k, Nat.repeat (nextOf n) k i = (i + k) % n := by
  refine ⟨?_, ?_, fun k => ?_⟩
  · unfold prevOf nextOf; split <;> split <;> omega
  · unfold prevOf nextOf; split <;> split <;> omega
  · induction k with
    | zero => exact (Nat.mod_eq_of_lt hi).symm
    | succ k ih =>
      rw [Nat.repeat, ih, nextOf]
      have : (i + k) % n < n := Nat.mod_lt _ (by omega)
      rw [show i + (k + 1) = i + k + 1 from rfl, Nat.add_mod (i + k) 1 n]
      split
      · rename_i h
        by_cases h1 : n = 1
        · subst h1; simp [Nat.mod_one]
        · rw [Nat.mod_eq_of_lt (by omega : 1 < n), h, Nat.mod_self]
      · rw [Nat.mod_eq_of_lt (by omega : 1 < n), Nat.mod_eq_of_lt (a := (i + k) % n + 1) (by omega)]

example : prevOf 19 0 = 18 ∧ nextOf 19 18 = 0 ∧ Nat.repeat (nextOf 19) 25 4 = 10 := by decide

/-! ## The controller takes part in the network as any other device -/

theorem controller_exec {s₀ : State} {h s} (r : Controller.Run env s₀ h s) :
    ∃ h', Exec env.plat s₀.node h' s.node := by
  induction r with
  | nil => exact ⟨[], .nil⟩
  | @cons h s s' inp _ hl ih =>
    obtain ⟨h', x⟩ := ih
    by_cases ha : Awake s inp
    · obtain ⟨node, ht, hm⟩ := loop_ok ha hl
      obtain ⟨h'', x', _⟩ := x.tick ht
      rcases mode_cases inp with h1 | h1 | h1
      · rw [runMode, modeOf_effect h1] at hm
        obtain ⟨s₁, e, y, z, h2, _, _, _, h3⟩ := runEffectMode_ok hm
        have h4 : s'.node = s₁.node := by rw [h3]
        rw [h4]
        have hcase : s₁.node = node ∨
            node.setEffect env.plat inp.now s.setEffectPacket = .ok s₁.node := by
          unfold select at h2
          by_cases c0 : inp.left.b0 = true
          · rw [if_pos c0] at h2; split at h2
            · cases h2
            · cases h2; exact .inl rfl
          rw [if_neg c0] at h2
          by_cases c1 : inp.right.b0 = true
          · rw [if_pos c1] at h2; split at h2
            · cases h2
            · cases h2; exact .inl rfl
          rw [if_neg c1] at h2
          by_cases c2 : inp.left.b1 = true
          · rw [if_pos c2] at h2; cases h2; exact .inl rfl
          rw [if_neg c2] at h2
          by_cases c3 : inp.right.b1 = true
          · rw [if_pos c3] at h2; cases h2; exact .inl rfl
          rw [if_neg c3] at h2
          by_cases c4 : inp.bottom.b0 = true
          · rw [if_pos c4] at h2
            simp only [bind, Except.bind] at h2
            split at h2
            · cases h2
            · rename_i n hn; cases h2; exact .inr hn
          · rw [if_neg c4] at h2; cases h2; exact .inl rfl
        rcases hcase with h5 | h5
        · rw [h5]; exact ⟨_, x'⟩
        · exact ⟨_, .cons (.setEffect inp.now _) x' h5⟩
      · rw [runMode, modeOf_colour h1] at hm
        obtain ⟨y, _, _, _, h2, h3⟩ := runColorMode_ok hm
        rcases pressed_cases inp with hn | ⟨side, r, hf⟩
        · rw [h2 hn]; exact ⟨_, x'⟩
        · exact ⟨_, .cons (.setEffect inp.now _) x' (h3 side r hf)⟩
      · rw [runMode, modeOf_palette h1] at hm
        obtain ⟨y, _, _, _, h2, h3⟩ := runPaletteMode_ok hm
        rcases pressed_cases inp with hn | ⟨side, r, hf⟩
        · rw [(h2 hn).1]; exact ⟨_, x'⟩
        · exact ⟨_, .cons (.setEffect inp.now _) x' (h3 side r hf).2⟩
    · rw [loop_asleep ha] at hl
      cases hl
      exact ⟨h', x⟩

/-- C92: the radio part of the controller is a network device in the sense of the properties
C01–C40: every run of the controller program, whatever its inputs, is (seen from the radio) a run
of the state machine from power-up. -/
theorem controller_is_a_node {t₀ rand rng gauge h s}
    (r : Controller.Run env (init env t₀ rand rng gauge) h s) :
    ∃ h', Firefly.Run env.plat t₀ h' s.node := by
  obtain ⟨h', x⟩ := controller_exec r
  have x₀ : ∃ h₀, Exec env.plat (Node.init t₀ rand (.heartbeat, Vector.replicate 58 0)
      (.heartbeat, Vector.replicate 58 0)) h₀ (init env t₀ rand rng gauge).node :=
    ⟨_, .cons (.setNumPalettes t₀ numPalettes)
      (.cons (.setNumEffects t₀ env.registry.getNumEffects) .nil rfl) rfl⟩
  obtain ⟨h₀, x₀⟩ := x₀
  exact ⟨_, rand, _, _, exec_append x₀ x⟩

/-! ## C91: the controller program never faults -/

theorem shipped_effects_regular (seeds : EffectSeeds) {e : Effect}
    (he : e ∈ distinctEffects (shippedEffects seeds)) : e ≠ .control ∧ e ≠ .simpleBlink 0 := by
  simp only [show distinctEffects (shippedEffects seeds) = [.colorCycle, .contrastBumps,
    .fire seeds.fire, .firefly seeds.firefly, .lightning, .pride, .rainbowBumps, .rainbow,
    .rorschach seeds.rorschach, .spark, .swingingLights, .swingingLights, .stopLight,
    .simpleBlink 60, .simpleBlink 30, .simpleBlink 12, .simpleBlink 300, .displayColorPalette,
    .dark] from rfl, List.mem_cons, List.not_mem_nil, or_false] at he
  rcases he with rfl | rfl | rfl | rfl | rfl | rfl | rfl | rfl | rfl | rfl | rfl | rfl | rfl |
    rfl | rfl | rfl | rfl | rfl | rfl <;> simp

theorem getRGB_total (F : FastLED) (e : Effect) {led : Nat} (t : U32) {strip : Strip}
    {pkt : Packet} (rng : U16) (he : e ≠ .control ∧ e ≠ .simpleBlink 0) (hled : led < 12)
    (hs : led < strip.count.toNat) (hp : pkt.data[2].toNat < 22) :
    ∃ r, e.getRGB F .arduino (BitVec.ofNat 8 led) t strip pkt rng = .ok r := by
  have hl : (BitVec.ofNat 8 led).toNat = led := by
    rw [BitVec.toNat_ofNat, Nat.mod_eq_of_lt (by omega)]
  obtain ⟨c, hc⟩ := effect_total F .arduino e (BitVec.ofNat 8 led) t strip pkt rng he.1 he.2
    (by rw [BitVec.lt_def, hl]; exact hs)
    (fun _ => by rw [BitVec.lt_def, hl, show (32 : U8).toNat = 32 from rfl]; omega)
    ⟨nofun, hp⟩
  exact ⟨_, by rw [Effect.getRGB, hc]; rfl⟩

theorem setEffect_total {s : Node} (hi : s.nm.idx.toNat < 5) (now : U32) (p : Packet) :
    ∃ s', s.setEffect .arduino now p = .ok s' := by
  rw [Node.setEffect_eq hi, if_neg (fun h => by cases h.1)]
  exact ⟨_, rfl⟩

theorem runEffectMode_total (hs : Shipped env seeds) (ha : env.plat = .arduino) {s : State}
    (inp : Input) (hi : s.node.nm.idx.toNat < 5)
    (he : s.effectIndex.toNat < 19) (hp : s.paletteIndex.toNat < 22) :
    ∃ s', runEffectMode env inp s = .ok s' := by
  have hsel : ∃ s₁, select env inp s = .ok s₁ := by
    obtain ⟨n, hn⟩ := setEffect_total hi inp.now s.setEffectPacket
    unfold select
    rw [hs.unique]
    dsimp only
    split
    · exact ⟨_, if_neg (by decide)⟩
    split
    · exact ⟨_, if_neg (by decide)⟩
    split
    · exact ⟨_, rfl⟩
    split
    · exact ⟨_, rfl⟩
    split
    · simp only [ha, hn, bind, Except.bind]; exact ⟨_, rfl⟩
    · exact ⟨_, rfl⟩
  obtain ⟨s₁, hs₁⟩ := hsel
  have h1 := (select_ok hs he hp hs₁).1
  have h2 := selectionAfter_lt (inp := inp) (sel := (s.effectIndex.toNat, s.paletteIndex.toNat)) he hp
  rw [← h1] at h2
  have hk : s₁.effectIndex.toNat < (distinctEffects (shippedEffects seeds)).length := h2.1
  have hreg := hs.lookup s₁.effectIndex hk
  have hdata : ((s₁.setEffectPacket.writeSetEffect
      (env.registry.uniqueEffectNumberToIndex s₁.effectIndex) kSetEffectDelay
      s₁.paletteIndex).data[2]).toNat < 22 := by simpa [Packet.writeSetEffect] using h2.2
  have hrow : ∀ e : Effect, e ≠ .control ∧ e ≠ .simpleBlink 0 → ∀ first, first + 12 ≤ 36 → ∀ x,
      ∃ y, showRow env inp s₁.node e (s₁.setEffectPacket.writeSetEffect
        (env.registry.uniqueEffectNumberToIndex s₁.effectIndex) kSetEffectDelay
        s₁.paletteIndex) first x = .ok y := by
    intro e he first hf x
    apply paint_ok x hf
    intro k hk st
    rw [ha]
    exact getRGB_total env.F e _ st he hk hk hdata
  obtain ⟨x, hx⟩ := hrow _ (shipped_effects_regular seeds (List.getElem_mem hk)) 0 (by decide)
    (effectModeButtonLeds inp s₁.leds, s₁.rng)
  obtain ⟨y, hy⟩ := hrow .displayColorPalette (by simp) 12 (by decide) x
  simp only [runEffectMode, bind, Except.bind, pure, Except.pure, hs₁, hreg]
  rw [hx]
  dsimp only
  rw [hy]
  exact ⟨_, rfl⟩

theorem showColors_total (x : Leds × Unit) :
    ∃ y, showColors env x = .ok y := by
  apply paint_ok x (by decide)
  intro k hk st
  split
  · exact ⟨_, rfl⟩
  · rw [vecGet_eq_some (colors_get (show k / 6 < 6 by omega))]; exact ⟨_, rfl⟩

/-- What the palette display shows on the five-LED strips of palette mode. -/
theorem palette_strip_colour (F : FastLED) {led k : Nat} (hled : led < 6) (hk : k < 6) (t : U32)
    (pkt : Packet) (rng : U16) :
    Effect.displayColorPalette.getRGB F .arduino (BitVec.ofNat 8 led) t kPaletteStrip
      (pkt.writeSetEffect 0 1 (BitVec.ofNat 8 (8 + k))) rng =
      ((Firefly.palettes.getD (8 + k) []).getGradient F (BitVec.ofNat 16 (led * 65536 / 5))).map
        fun c => (F.hsv2rgb c, rng) := by
  have hl : (BitVec.ofNat 8 led).toNat = led := by
    rw [BitVec.toNat_ofNat, Nat.mod_eq_of_lt (by omega)]
  have hp : paletteOf .arduino (pkt.writeSetEffect 0 1 (BitVec.ofNat 8 (8 + k))) =
      .ok (Firefly.palettes.getD (8 + k) []) := by
    match k with
    | 0 | 1 | 2 | 3 | 4 | 5 =>
      simp [paletteOf, Packet.readPaletteIndexFromSetEffect, Packet.writeSetEffect, hostAssert,
        bind, Except.bind, pure, Except.pure]
      rfl
    | k + 6 => omega
  have hsize : ¬ (kPaletteStrip.count < Palette.size (Firefly.palettes.getD (8 + k) []) ∧
      Palette.size (Firefly.palettes.getD (8 + k) []) ≤ 4) := by
    match k with
    | 0 | 1 | 2 | 3 | 4 | 5 => decide
    | k + 6 => omega
  generalize hq : Firefly.palettes.getD (8 + k) [] = q at *
  have e : Effects.displayColorPalette F .arduino (BitVec.ofNat 8 led) t kPaletteStrip
      (pkt.writeSetEffect 0 1 (BitVec.ofNat 8 (8 + k))) =
      (q.getGradient F (BitVec.ofNat 16 (led * 65536 / 5))).map .hsv := by
    unfold Effects.displayColorPalette
    simp only [hp, bind, Except.bind, pure, Except.pure, if_neg hsize, hl]
    rw [show divNat (led * 65536) kPaletteStrip.count.toNat = .ok (led * 65536 / 5) from rfl]
    dsimp only
    cases Palette.getGradient F q (BitVec.ofNat 16 (led * 65536 / 5)) <;> rfl
  have e' : Effect.displayColorPalette.getRGB F .arduino (BitVec.ofNat 8 led) t kPaletteStrip
      (pkt.writeSetEffect 0 1 (BitVec.ofNat 8 (8 + k))) rng =
      ((Effects.displayColorPalette F .arduino (BitVec.ofNat 8 led) t kPaletteStrip
      (pkt.writeSetEffect 0 1 (BitVec.ofNat 8 (8 + k)))).map (·, rng)).map
        fun r => (r.1.toRGB F, r.2) := rfl
  rw [e', e]
  cases Palette.getGradient F q (BitVec.ofNat 16 (led * 65536 / 5)) <;> rfl

theorem palette_strip_gradient (F : FastLED) {k : Nat} (hk : k < 6) (pos : U16) :
    ∃ c, (Firefly.palettes.getD (8 + k) []).getGradient F pos = .ok c := by
  apply gradient_total
  match k with
  | 0 | 1 | 2 | 3 | 4 | 5 => decide
  | k + 6 => omega

theorem showPalettes_total (ha : env.plat = .arduino) (inp : Input) (node : Node)
    (x : Leds × (U16 × Packet)) : ∃ y, showPalettes env inp node x = .ok y := by
  apply paint_ok x (by decide)
  intro k hk st
  dsimp only
  split
  · exact ⟨_, rfl⟩
  · obtain ⟨c, hc⟩ := palette_strip_gradient env.F (show k / 6 < 6 by omega)
      (BitVec.ofNat 16 (k % 6 * 65536 / 5))
    rw [vecGet_eq_some (palettes_get (show k / 6 < 6 by omega)), ha]
    simp only [bind, Except.bind, pure, Except.pure]
    rw [palette_strip_colour env.F (by omega) (by omega), hc]
    exact ⟨_, rfl⟩

/-- C91: on the boards, with the shipped effects, no sequence of button presses, switch
positions, battery readings, packets and times drives the controller program into undefined
behaviour. -/
theorem controller_never_faults (ha : env.plat = .arduino)
    (hreg : shippedRegistry env.plat seeds = .ok env.registry) {t₀ rand rng gauge h s}
    (r : Controller.Run env (init env t₀ rand rng gauge) h s) (inp : Input) :
    ∃ s', loop env inp s = .ok s' := by
  by_cases hw : Awake s inp
  · obtain ⟨h', x⟩ := controller_is_a_node r
    have step : ∀ {h' n}, Firefly.Run env.plat t₀ h' n → ∀ op, ∃ n', Op.step .arduino op n = .ok n' :=
      fun y op => by rw [ha] at y; exact arduino_never_faults y op
    have htick : ∃ node, s.node.tick env.plat inp.now₁ inp.rx₁ inp.now₂ inp.rx₂ = .ok node := by
      rw [ha]
      obtain ⟨s₁, h1⟩ := step x (.radioTick inp.now₁ inp.rx₁)
      rcases hb : s₁.tickRun with _ | _
      · exact ⟨_, Node.tick_eq_ops.2 ⟨s₁, h1, .inl ⟨hb, rfl⟩⟩⟩
      · obtain ⟨rd, j, j', x⟩ := x
        have x₁ : Exec env.plat _ _ s₁ := .cons _ x (by rw [ha]; exact h1)
        obtain ⟨s₂, h2⟩ := step ⟨rd, j, j', x₁⟩ (.radioTick inp.now₂ inp.rx₂)
        exact ⟨_, Node.tick_eq_ops.2 ⟨s₁, h1, .inr ⟨hb, s₂, h2, rfl⟩⟩⟩
    obtain ⟨node, hn⟩ := htick
    obtain ⟨he, hp⟩ := selection_valid hreg r
    have hidx : node.nm.idx.toNat < 5 := by
      obtain ⟨rd, j, j', x⟩ := x
      obtain ⟨h'', x', _⟩ := x.tick hn
      exact (Run.wf ⟨rd, j, j', x'⟩).idx
    rw [loop_awake hw, hn]
    show ∃ s', runMode env inp (entered inp s node) = .ok s'
    rcases mode_cases inp with h1 | h1 | h1
    · rw [runMode, modeOf_effect h1]
      exact runEffectMode_total (shipped_of hreg) ha inp hidx he hp
    · rw [runMode, modeOf_colour h1]
      obtain ⟨y, hy⟩ := showColors_total (env := env) ((entered inp s node).leds, ())
      simp only [runColorMode, bind, Except.bind, pure, Except.pure, hy]
      rcases pressed_cases inp with hn | ⟨side, r, hf⟩
      · rw [pressedIndex_none hn]; exact ⟨_, rfl⟩
      · obtain ⟨hi, hr⟩ := pressedIndex_some hf
        rw [hi]
        dsimp only
        rw [vecGet_eq_some (colors_get (number_lt hr)), ha]
        dsimp only
        obtain ⟨n, hn⟩ := setEffect_total hidx inp.now
          ((entered inp s node).controlPacket.writeControl kSetEffectDelay
          (env.F.hsv2rgb ⟨BitVec.ofNat 8 (256 * side.number r / 6), 255, 255⟩))
        have e : (entered inp s node).node = node := rfl
        rw [e, hn]
        exact ⟨_, rfl⟩
    · rw [runMode, modeOf_palette h1]
      obtain ⟨y, hy⟩ := showPalettes_total ha inp (entered inp s node).node
        ((entered inp s node).leds, (entered inp s node).rng, (entered inp s node).setEffectPacket)
      simp only [runPaletteMode, bind, Except.bind, pure, Except.pure, hy]
      rcases pressed_cases inp with hn | ⟨side, r, hf⟩
      · rw [pressedIndex_none hn]; exact ⟨_, rfl⟩
      · obtain ⟨hi, hr⟩ := pressedIndex_some hf
        rw [hi]
        dsimp only
        rw [vecGet_eq_some (palettes_get (number_lt hr)), ha]
        dsimp only
        obtain ⟨n, hn⟩ := setEffect_total hidx inp.now
          (y.2.2.writeSetEffect node.getEffectIndex kSetEffectDelay
          (BitVec.ofNat 8 (8 + side.number r)))
        have e : (entered inp s node).node = node := rfl
        rw [e, hn]
        exact ⟨_, rfl⟩
  · rw [loop_asleep hw]; exact ⟨_, rfl⟩

/-- The hypotheses of `controller_never_faults` hold of the shipped program, and so the
controller runs with any list of inputs. -/
theorem controller_runs (l : List Input) :
    ∃ h s, Controller.Run Demo.env Demo.start h s ∧ h.map (·.2.1) = l := by
  induction l with
  | nil => exact ⟨[], _, .nil, rfl⟩
  | cons inp l ih =>
    obtain ⟨h, s, r, e⟩ := ih
    obtain ⟨s', hl⟩ := controller_never_faults rfl Demo.env_shipped r inp
    exact ⟨_, s', .cons inp r hl, by rw [List.map_cons, e]⟩

/-! ## C74: the broadcast button transmits the selection -/

theorem setEffect_sent {plat now p} {s s' : Node} (hi : s.nm.idx.toNat < 5)
    (h : s.setEffect plat now p = .ok s') :
    ∃ id, s'.sent = s.sent ++ [{ p with id := id }] ∧ s'.effectIndex = p.data[0] := by
  rw [Node.setEffect_eq hi] at h
  split at h
  · cases h
  · cases h; exact ⟨_, rfl, rfl⟩

/-- The slot under which the shipped registry files its `k`-th distinct effect, in any build. -/
def slotOf (k : Nat) : U8 :=
  ([0, 2, 4, 5, 7, 8, 9, 13, 17, 19, 23, 27, 28, 29, 30, 31, 32, 33, 34] : List U8).getD k 0

theorem shipped_indices (plat : Platform) (seeds : EffectSeeds) :
    ∃ r, shippedRegistry plat seeds = .ok r ∧
      r.uniqueIndices = [0, 2, 4, 5, 7, 8, 9, 13, 17, 19, 23] ∧ r.effects.length = 27 := by
  obtain ⟨r, e, h⟩ := registered_of_small plat (shippedEffects seeds)
    (by rw [show (allSlots (shippedEffects seeds)).length = 35 from rfl]; decide)
  exact ⟨r, e, by rw [h.unique]; rfl, by rw [h.effects]; rfl⟩

theorem slotOf_eq {plat : Platform} {r : Registry Effect} (hreg : shippedRegistry plat seeds = .ok r)
    (k : U8) (hk : k.toNat < 19) : r.uniqueEffectNumberToIndex k = slotOf k.toNat := by
  obtain ⟨r', e, h1, h2⟩ := shipped_indices plat seeds
  rw [hreg] at e; cases e
  unfold Registry.uniqueEffectNumberToIndex slotOf
  simp only [h1, h2]
  have fin : ∀ j : Fin 19, (if h : j.val < ([0, 2, 4, 5, 7, 8, 9, 13, 17, 19, 23] : List U8).length then
      ([0, 2, 4, 5, 7, 8, 9, 13, 17, 19, 23] : List U8)[j.val]
      else BitVec.ofNat 8 (27 + (j.val - ([0, 2, 4, 5, 7, 8, 9, 13, 17, 19, 23] : List U8).length))) =
      ([0, 2, 4, 5, 7, 8, 9, 13, 17, 19, 23, 27, 28, 29, 30, 31, 32, 33, 34] : List U8).getD j.val 0 := by
    decide +kernel
  exact fin ⟨k.toNat, hk⟩

/-- Every board with the shipped effects, whatever its build and its random members, looks up
the `k`-th distinct effect at that slot. -/
theorem slotOf_lookup {plat : Platform} {r : Registry Effect}
    (hreg : shippedRegistry plat seeds = .ok r) {k : Nat} (hk : k < 19) :
    r.getEffect plat (slotOf k) = .ok ((distinctEffects (shippedEffects seeds))[k]'hk) := by
  have h := (shipped_of (env := ⟨FastLED.reference, plat, r⟩) hreg).lookup (BitVec.ofNat 8 k)
    (by rw [BitVec.toNat_ofNat, Nat.mod_eq_of_lt (by omega)]; exact hk)
  have hk' : (BitVec.ofNat 8 k).toNat = k := by
    rw [BitVec.toNat_ofNat, Nat.mod_eq_of_lt (by omega)]
  have e := slotOf_eq hreg (BitVec.ofNat 8 k) (by rw [hk']; exact hk)
  rw [hk'] at e
  dsimp only at h
  rw [e] at h
  rw [h]
  simp only [hk']
  rfl

/-- What an iteration leaves in the packet buffer of effect mode. -/
theorem buffer_step {s s' : State} {inp : Input} (h : loop env inp s = .ok s') :
    (Awake s inp → EffectMode inp → s'.setEffectPacket.type = .setEffect ∧
      s'.setEffectPacket.len = 3 ∧
      s'.setEffectPacket.data[0] = env.registry.uniqueEffectNumberToIndex s'.effectIndex ∧
      s'.setEffectPacket.data[1] = 60 ∧ s'.setEffectPacket.data[2] = s'.paletteIndex) ∧
    (¬ (Awake s inp ∧ (EffectMode inp ∨ PaletteMode inp)) →
      s'.setEffectPacket = s.setEffectPacket ∧ s'.effectIndex = s.effectIndex ∧
        s'.paletteIndex = s.paletteIndex) ∧
    (Awake s inp → PaletteMode inp → NonePressed inp → s'.setEffectPacket.type = .setEffect ∧
      s'.setEffectPacket.len = 3 ∧ s'.setEffectPacket.data[0] = 0 ∧
      s'.setEffectPacket.data[1] = 1 ∧ s'.setEffectPacket.data[2] = 13) := by
  by_cases ha : Awake s inp
  · obtain ⟨node, ht, hm⟩ := loop_ok ha h
    rcases mode_cases inp with h1 | h1 | h1
    · have hnp : ¬ PaletteMode inp := fun h2 => by
        unfold EffectMode at h1; unfold PaletteMode at h2; omega
      refine ⟨fun _ _ => ?_, fun hn => absurd ⟨ha, .inl h1⟩ hn, fun _ hp => absurd hp hnp⟩
      rw [runMode, modeOf_effect h1] at hm
      obtain ⟨s₁, e, x, y, _, _, _, _, h2⟩ := runEffectMode_ok hm
      rw [h2]
      simp [Packet.writeSetEffect, kSetEffectDelay]
    · have hnp : ¬ PaletteMode inp := fun h2 => by
        unfold ColourMode at h1; unfold PaletteMode at h2; omega
      have hne : ¬ EffectMode inp := fun h2 => by
        unfold ColourMode at h1; unfold EffectMode at h2; omega
      refine ⟨fun _ hp => absurd hp hne, fun _ => ?_, fun _ hp => absurd hp hnp⟩
      rw [runMode, modeOf_colour h1] at hm
      obtain ⟨x, _, _, h2, _⟩ := runColorMode_ok hm
      rw [h2]; exact ⟨rfl, rfl, rfl⟩
    · have hne : ¬ EffectMode inp := fun h2 => by
        unfold PaletteMode at h1; unfold EffectMode at h2; omega
      refine ⟨fun _ hp => absurd hp hne, fun hn => absurd ⟨ha, .inr h1⟩ hn, fun _ _ hnone => ?_⟩
      rw [runMode, modeOf_palette h1] at hm
      obtain ⟨x, hx, _, _, h2, _⟩ := runPaletteMode_ok hm
      rw [(h2 hnone).2]
      obtain ⟨r, _, hr, hk, _⟩ := paint_spec (by decide) hx
      obtain ⟨c, hc, _⟩ := hk 35 (by decide)
      rw [← hr]
      rw [show middle 35 = false from rfl] at hc
      simp only [Bool.false_eq_true, if_false, bind, Except.bind, pure, Except.pure] at hc
      rw [show vecGet Controller.palettes (35 / 6) = .ok 13 from rfl] at hc
      dsimp only at hc
      split at hc
      · cases hc
      · injection hc with hc
        rw [← (Prod.ext_iff.1 (Prod.ext_iff.1 hc).2).2]
        simp [Packet.writeSetEffect]
  · refine ⟨fun hn => absurd hn ha, fun _ => ?_, fun hn => absurd hn ha⟩
    rw [loop_asleep ha] at h
    cases h
    exact ⟨rfl, rfl, rfl⟩

/-- The broadcast button transmits the content of the buffer. -/
theorem broadcast_sends_buffer (hreg : shippedRegistry env.plat seeds = .ok env.registry)
    {t₀ rand rng gauge h s} (r : Controller.Run env (init env t₀ rand rng gauge) h s)
    {inp : Input} {s' : State} (hl : loop env inp s = .ok s') (ha : Awake s inp)
    (hm : EffectMode inp) (hb : BroadcastPressed inp) :
    ∃ id, Transmits env s inp s' { s.setEffectPacket with id := id } ∧
      s'.node.getEffectIndex = s.setEffectPacket.data[0] := by
  obtain ⟨he, hp⟩ := selection_valid hreg r
  obtain ⟨node, ht, hrm⟩ := loop_ok ha hl
  obtain ⟨h', rd, j, j', x⟩ := controller_is_a_node r
  obtain ⟨h'', x', _⟩ := x.tick ht
  have hidx : node.nm.idx.toNat < 5 := (Run.wf ⟨rd, j, j', x'⟩).idx
  rw [runMode, modeOf_effect hm] at hrm
  obtain ⟨s₁, e, y, z, h1, _, _, _, h2⟩ := runEffectMode_ok hrm
  rcases (select_ok (shipped_of hreg) (s := entered inp s node) he hp h1).2.2 with ⟨_, h3⟩ | ⟨h3, _⟩
  · have h4 : s'.node = s₁.node := by rw [h2]
    rw [← h4] at h3
    have h5 : node.setEffect env.plat inp.now s.setEffectPacket = .ok s'.node := h3
    obtain ⟨id, h6, h7⟩ := setEffect_sent hidx h5
    exact ⟨id, ⟨node, ht, h6⟩, h7⟩
  · exact absurd hb h3

/-- C74: suppose the controller has run in effect mode and has not been switched to palette mode
since.  When the broadcast button is pressed, it transmits a set-effect packet of 60 seconds that
names the selected palette and the slot under which every board with the shipped effects (of
any build and with any random members) finds the selected effect; and the selection stays. -/
theorem broadcast_sends_selection (hreg : shippedRegistry env.plat seeds = .ok env.registry)
    {t₀ rand rng gauge h s} (r : Controller.Run env (init env t₀ rand rng gauge) h s)
    {h₁ h₂ e} (hh : h = h₁ ++ e :: h₂) (hea : Awake e.1 e.2.1) (hem : EffectMode e.2.1)
    (hsince : ∀ e' ∈ h₁, ¬ (Awake e'.1 e'.2.1 ∧ PaletteMode e'.2.1))
    {inp : Input} {s' : State} (hl : loop env inp s = .ok s') (ha : Awake s inp)
    (hm : EffectMode inp) (hb : BroadcastPressed inp) :
    (s'.effectIndex = s.effectIndex ∧ s'.paletteIndex = s.paletteIndex) ∧
    ∃ q, Transmits env s inp s' q ∧ q.type = .setEffect ∧ q.len = 3 ∧ q.data[1] = 60 ∧
      q.data[2] = s.paletteIndex ∧
      ∀ plat' seeds' r', shippedRegistry plat' seeds' = .ok r' →
        ∃ hk : s.effectIndex.toNat < (distinctEffects (shippedEffects seeds')).length,
          r'.getEffect plat' q.data[0] =
            .ok (distinctEffects (shippedEffects seeds'))[s.effectIndex.toNat] := by
  obtain ⟨he, hp⟩ := selection_valid hreg r
  have hbuf : s.setEffectPacket.type = .setEffect ∧ s.setEffectPacket.len = 3 ∧
      s.setEffectPacket.data[0] = env.registry.uniqueEffectNumberToIndex s.effectIndex ∧
      s.setEffectPacket.data[1] = 60 ∧ s.setEffectPacket.data[2] = s.paletteIndex := by
    clear hl ha hm hb he hp
    subst hh
    induction h₁ generalizing s with
    | nil =>
      cases r with
      | cons inp' r' hl' => exact (buffer_step hl').1 hea hem
    | cons e' h₁ ih =>
      cases r with
      | @cons _ s₁ _ inp' r' hl' =>
        have hn := hsince _ List.mem_cons_self
        by_cases hc : Awake s₁ inp' ∧ EffectMode inp'
        · exact (buffer_step hl').1 hc.1 hc.2
        · have ih := ih (fun e he => hsince e (List.mem_cons_of_mem _ he)) r'
          obtain ⟨h1, h2, h3⟩ := (buffer_step hl').2.1 (by
            rintro ⟨h1, h2 | h2⟩
            · exact hc ⟨h1, h2⟩
            · exact hn ⟨h1, h2⟩)
          rw [h1, h2, h3]; exact ih
  obtain ⟨id, ht, _⟩ := broadcast_sends_buffer hreg r hl ha hm hb
  obtain ⟨h1, h2, h3, h4, h5⟩ := hbuf
  refine ⟨?_, _, ht, h1, h2, h4, h5, ?_⟩
  · have := (selection_step hreg he hp hl).1 ⟨ha, hm⟩
    obtain ⟨_, b1, b2, b3, b4⟩ := hb
    simp only [selectionAfter, b1, b2, b3, b4, Bool.false_eq_true, if_false] at this
    obtain ⟨e1, e2⟩ := Prod.ext_iff.1 this
    exact ⟨BitVec.eq_of_toNat_eq e1, BitVec.eq_of_toNat_eq e2⟩
  · intro plat' seeds' r' hreg'
    refine ⟨he, ?_⟩
    dsimp only
    rw [h3, slotOf_eq hreg s.effectIndex he]
    exact slotOf_lookup hreg' he

/-- A concrete case: two presses in effect mode, an iteration in colour mode, then the broadcast
button: effect 1 (slot 2) and palette 21 are transmitted. -/
example : ∃ h s h₁ e h₂ inp s', Controller.Run Demo.env Demo.start h s ∧ h = h₁ ++ e :: h₂ ∧
    Awake e.1 e.2.1 ∧ EffectMode e.2.1 ∧
    (∀ e' ∈ h₁, ¬ (Awake e'.1 e'.2.1 ∧ PaletteMode e'.2.1)) ∧ h₁ ≠ [] ∧
    loop Demo.env inp s = .ok s' ∧ Awake s inp ∧ EffectMode inp ∧ BroadcastPressed inp ∧
    s'.node.sent.getLast?.map (·.data.toList.take 3) = some [2, 60, 21] := by
  obtain ⟨h, s, r, c⟩ := Demo.run_of_check
    (l := [{ Demo.quiet 1200 900 with bottom := Demo.first3 },
      Demo.quiet 1150 100, { Demo.quiet 1100 900 with right := Demo.first3 },
      { Demo.quiet 1050 900 with left := Demo.second3 }])
    (fun h s' => match h with
      | [(s, inp, _), e', e, _] => decide (Awake e.1 e.2.1 ∧ EffectMode e.2.1 ∧
          ¬ (Awake e'.1 e'.2.1 ∧ PaletteMode e'.2.1) ∧ Awake s inp ∧ EffectMode inp ∧
          BroadcastPressed inp ∧ s'.node.sent.getLast?.map (·.data.toList.take 3) = some [2, 60, 21])
      | _ => false) (by decide +kernel)
  split at c
  · rename_i s₁ inp s₂ e' e e₂
    obtain ⟨c1, c2, c3, c4, c5, c6, c7⟩ := of_decide_eq_true c
    cases r with
    | cons _ r hl =>
      exact ⟨_, _, [e'], e, [e₂], inp, _, r, rfl, c1, c2, by simpa using c3, by simp, hl,
        c4, c5, c6, c7⟩
  · cases c

/-- C74, the exception: when the iteration before was in palette mode (no button pressed in it),
the broadcast button transmits effect 0 with palette 13 for one second, whatever is selected. -/
theorem broadcast_after_palette_mode (hreg : shippedRegistry env.plat seeds = .ok env.registry)
    {t₀ rand rng gauge h s} {e : State × Input × State}
    (r : Controller.Run env (init env t₀ rand rng gauge) (e :: h) s)
    (hea : Awake e.1 e.2.1) (hem : PaletteMode e.2.1) (hen : NonePressed e.2.1)
    {inp : Input} {s' : State} (hl : loop env inp s = .ok s') (ha : Awake s inp)
    (hm : EffectMode inp) (hb : BroadcastPressed inp) :
    ∃ q, Transmits env s inp s' q ∧ q.type = .setEffect ∧ q.len = 3 ∧ q.data[0] = 0 ∧
      q.data[1] = 1 ∧ q.data[2] = 13 := by
  obtain ⟨id, ht, _⟩ := broadcast_sends_buffer hreg r hl ha hm hb
  cases r with
  | cons inp' r' hl' =>
    obtain ⟨h1, h2, h3, h4, h5⟩ := (buffer_step hl').2.2 hea hem hen
    exact ⟨_, ht, h1, h2, h3, h4, h5⟩

/-- A concrete case: effect 1 is selected, then the switch visits palette mode; the broadcast
button transmits effect 0. -/
example : ∃ h s e inp s', Controller.Run Demo.env Demo.start (e :: h) s ∧ Awake e.1 e.2.1 ∧
    PaletteMode e.2.1 ∧ NonePressed e.2.1 ∧ loop Demo.env inp s = .ok s' ∧ Awake s inp ∧
    EffectMode inp ∧ BroadcastPressed inp ∧ s.effectIndex = 1 ∧
    s'.node.sent.getLast?.map (·.data.toList.take 3) = some [0, 1, 13] := by
  obtain ⟨h, s, r, c⟩ := Demo.run_of_check
    (l := [{ Demo.quiet 1200 900 with bottom := Demo.first3 },
      Demo.quiet 1150 300, { Demo.quiet 1100 900 with right := Demo.first3 }])
    (fun h s' => match h with
      | (s, inp, _) :: e :: _ => decide (Awake e.1 e.2.1 ∧ PaletteMode e.2.1 ∧
          (e.2.1.left = Demo.none3 ∧ e.2.1.right = Demo.none3) ∧ Awake s inp ∧ EffectMode inp ∧
          BroadcastPressed inp ∧ s.effectIndex = 1 ∧
          s'.node.sent.getLast?.map (·.data.toList.take 3) = some [0, 1, 13])
      | _ => false) (by decide +kernel)
  split at c
  · rename_i s₁ inp s₂ e h₂
    obtain ⟨c1, c2, c3, c4, c5, c6, c7, c8⟩ := of_decide_eq_true c
    cases r with
    | cons _ r hl =>
      refine ⟨_, _, e, inp, _, r, c1, c2, fun side r => ?_, hl, c4, c5, c6, c7, c8⟩
      cases side <;> unfold Side.pressed <;> simp only [c3.1, c3.2] <;> split <;> rfl
  · cases c

/-- C74, the second exception: if the controller never ran in effect or palette mode before, the
broadcast button transmits an empty heartbeat packet. -/
theorem broadcast_before_selection (hreg : shippedRegistry env.plat seeds = .ok env.registry)
    {t₀ rand rng gauge h s} (r : Controller.Run env (init env t₀ rand rng gauge) h s)
    (hnone : ∀ e ∈ h, ¬ (Awake e.1 e.2.1 ∧ (EffectMode e.2.1 ∨ PaletteMode e.2.1)))
    {inp : Input} {s' : State} (hl : loop env inp s = .ok s') (ha : Awake s inp)
    (hm : EffectMode inp) (hb : BroadcastPressed inp) :
    ∃ q, Transmits env s inp s' q ∧ q.type = .heartbeat ∧ q.len = 0 := by
  have hbuf : s.setEffectPacket.type = .heartbeat ∧ s.setEffectPacket.len = 0 := by
    clear hl ha hm hb
    induction r with
    | nil => exact ⟨rfl, rfl⟩
    | cons inp' r' hl' ih =>
      rw [((buffer_step hl').2.1 (hnone _ List.mem_cons_self)).1]
      exact ih fun e he => hnone e (List.mem_cons_of_mem _ he)
  obtain ⟨id, ht, _⟩ := broadcast_sends_buffer hreg r hl ha hm hb
  exact ⟨_, ht, hbuf.1, hbuf.2⟩

/-- A concrete case: the first thing ever done is pressing the broadcast button. -/
example : ∃ inp s', loop Demo.env inp Demo.start = .ok s' ∧ Awake Demo.start inp ∧
    EffectMode inp ∧ BroadcastPressed inp ∧
    s'.node.sent.getLast?.map (fun q => (q.type, q.len)) = some (.heartbeat, 0) := by
  obtain ⟨h, s, r, c⟩ := Demo.run_of_check
    (l := [{ Demo.quiet 1200 900 with bottom := Demo.first3 }])
    (fun h s' => match h with
      | [(s, inp, _)] => decide (inp.battery.expired = true ∧ inp.battery.value = 1000 ∧
          EffectMode inp ∧ BroadcastPressed inp ∧
          s'.node.sent.getLast?.map (fun q => (q.type, q.len)) = some (.heartbeat, 0))
      | _ => false) (by decide +kernel)
  split at c
  · rename_i s₁ inp s₂
    obtain ⟨c1, c2, c3, c4, c5⟩ := of_decide_eq_true c
    cases r with
    | cons _ r hl =>
      cases r with
      | nil =>
        refine ⟨inp, _, hl, ?_, c3, c4, c5⟩
        have : inp.battery = ⟨true, 1000⟩ := by
          cases h : inp.battery; rw [h] at c1 c2; cases c1; cases c2; rfl
        rw [Awake, this]; decide
  · cases c

end Firefly.Props
