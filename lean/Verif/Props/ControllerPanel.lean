import Verif.Props.Controller

/-! # Properties of the controller's panel -/

set_option linter.unusedSimpArgs false

namespace Firefly.Props
open Firefly Spec Controller

variable {env : Env} {seeds : EffectSeeds}

/-! ## C75: the LED map -/

/-- C75: setting main LED `i` (row by row, left to right) changes the LED at that place of the
panel and nothing else. -/
theorem main_led_write {i : Nat} (hi : i < 36) (leds : Leds) (c : CRGB) :
    ∃ leds', setMainLed leds (BitVec.ofNat 8 i) c = .ok leds' ∧
      leds'[panel (i / 12) (i % 12)]? = some c ∧
      ∀ j : Nat, j ≠ panel (i / 12) (i % 12) → leds'[j]? = leds[j]? := by
  obtain ⟨h1, _, _, _, h2⟩ := midx_facts hi
  refine ⟨_, setMainLed_ok hi leds c, ?_, fun j hj => ?_⟩
  · have := Vector.getElem?_set_self (xs := leds) (i := midx i) (x := c)
      (Nat.lt_trans h1 (by decide))
    rw [← this]
    congr 1
    exact h2.symm
  · rw [← h2] at hj; rw [Vector.getElem?_set_ne _ (Ne.symm hj)]

example : setMainLed dark 12 ⟨1, 2, 3⟩ = .ok (dark.set 26 ⟨1, 2, 3⟩) := rfl

/-- C75: the 36 places of the panel are 36 different LEDs, and together with the three status
LEDs (7, 8, 9) and the three lamp LEDs (39, 40, 41) they are all 42. -/
theorem panel_places {r c : Nat} (hr : r < 3) (hc : c < 12) :
    (panel r c < 39 ∧ panel r c ≠ 7 ∧ panel r c ≠ 8 ∧ panel r c ≠ 9) ∧
    ∀ r' c', r' < 3 → c' < 12 → panel r c = panel r' c' → r = r' ∧ c = c' := by
  match r, hr with
  | 0, _ | 1, _ | 2, _ =>
    refine ⟨by simp only [panel]; (try split) <;> omega, fun r' c' hr' hc' h => ?_⟩
    match r', hr' with
    | 0, _ | 1, _ | 2, _ =>
      simp only [panel] at h
      (repeat' split at h) <;> omega

/-- C75: an index beyond the 36 main LEDs does not fault before 39: it hits the lamps. -/
theorem main_led_beyond (leds : Leds) (c : CRGB) (i : U8) :
    (36 ≤ i.toNat → i.toNat < 39 → ∃ leds', setMainLed leds i c = .ok leds' ∧
      leds'[i.toNat + 3]? = some c) ∧
    (39 ≤ i.toNat → setMainLed leds i c = .error .outOfBounds) := by
  have h : 36 ≤ i.toNat → mainLedIndex i = i.toNat + 3 := by
    intro h
    unfold mainLedIndex
    rw [if_neg, if_pos]
    · rw [BitVec.lt_def, show (6 : U8).toNat = 6 from rfl]; omega
    · rw [BitVec.lt_def, BitVec.lt_def, show (24 : U8).toNat = 24 from rfl]; omega
  constructor
  · intro h1 h2
    unfold setMainLed
    rw [dif_pos (by rw [h h1]; omega)]
    refine ⟨_, rfl, ?_⟩
    simp only [h h1]
    rw [Vector.getElem?_set_self]
  · intro h1
    unfold setMainLed
    rw [dif_neg (by rw [h (by omega)]; omega)]

example : panel 0 7 = 10 ∧ panel 1 0 = 26 ∧ panel 1 11 = 15 ∧ panel 2 0 = 27 := by decide

example : setMainLed dark 36 ⟨1, 2, 3⟩ = .ok (dark.set 39 ⟨1, 2, 3⟩) := rfl

/-! ## Reading the LEDs -/

theorem panel_eq {r c : Nat} (hr : r < 3) (hc : c < 12) :
    panel r c = midx (12 * r + c) ∧ 12 * r + c < 36 ∧ (12 * r + c) % 12 = c := by
  have h := (midx_facts (i := 12 * r + c) (by omega)).2.2.2.2
  rw [show (12 * r + c) / 12 = r by omega, show (12 * r + c) % 12 = c by omega] at h
  exact ⟨h.symm, by omega, by omega⟩

theorem directLeft_get (inp : Input) (leds : Leds) {j : Nat} (h : j ≠ 41) :
    (directLeftLeds inp leds)[j]? = leds[j]? := by
  unfold directLeftLeds
  repeat' split
  all_goals rw [leftLeds_get, if_neg h]

theorem directRight_get (inp : Input) (a b : Bool) (leds : Leds) {j : Nat} (h : j ≠ 39) :
    (directRightLeds inp a b leds)[j]? = leds[j]? := by
  unfold directRightLeds
  repeat' split
  all_goals rw [rightLeds_get, if_neg h]

theorem effectLamps_get (inp : Input) (leds : Leds) {j : Nat} (h : j < 39) :
    (effectModeButtonLeds inp leds)[j]? = leds[j]? := by
  unfold effectModeButtonLeds
  simp only
  repeat' split
  all_goals rw [bottomLeds_get, if_neg (by omega), rightLeds_get, if_neg (by omega), leftLeds_get,
    if_neg (by omega)]

theorem side_cases {side : Side} {c : Nat} (h : side.Beside c) :
    c < 12 ∧ middle c = false ∧ ∀ r, r < 3 → (12 * r + c) / 6 = side.number r ∧
      middle (12 * r + c) = false := by
  cases side with
  | left =>
    have h : c < 5 := h
    refine ⟨by omega, by simp [middle]; omega, fun r hr => ⟨?_, by simp [middle]; omega⟩⟩
    simp only [Side.number]; omega
  | right =>
    obtain ⟨h1, h2⟩ : 7 ≤ c ∧ c < 12 := h
    refine ⟨by omega, by simp [middle]; omega, fun r hr => ⟨?_, by simp [middle]; omega⟩⟩
    simp only [Side.number]; omega

/-! ## C85: colour mode -/

/-- C85: in colour mode the five columns next to each side button show that button's colour
(hues spread evenly, full saturation and value), and the two middle columns are dark. -/
theorem colour_display {s s' : State} {inp : Input} (ha : Awake s inp) (hm : ColourMode inp)
    (h : loop env inp s = .ok s') {r : Nat} (hr : r < 3) :
    (∀ side c, Side.Beside side c → s'.leds[panel r c]? =
      some (env.F.hsv2rgb ⟨BitVec.ofNat 8 (256 * side.number r / 6), 255, 255⟩)) ∧
    ∀ c, c = 5 ∨ c = 6 → s'.leds[panel r c]? = some ⟨0, 0, 0⟩ := by
  obtain ⟨node, ht, hrm⟩ := loop_ok ha h
  rw [runMode, modeOf_colour hm] at hrm
  obtain ⟨x, hx, hl, _⟩ := runColorMode_ok hrm
  obtain ⟨_, _, _, hk, _⟩ := paint_spec (by decide) hx
  have hleds : ∀ j : Nat, j < 39 → s'.leds[j]? = x.1[j]? := fun j hj => by
    rw [hl, bottomLeds_get, if_neg (by omega), directRight_get _ _ _ _ (by omega),
      directLeft_get _ _ (by omega)]
  constructor
  · intro side c hc
    obtain ⟨hc12, _, hb⟩ := side_cases hc
    obtain ⟨e1, e2, _⟩ := panel_eq hr hc12
    obtain ⟨col, h1, h2⟩ := hk _ e2
    rw [(hb r hr).2, (hb r hr).1, if_neg (by decide),
      vecGet_eq_some (colors_get (number_lt hr))] at h1
    rw [e1, hleds _ (midx_facts e2).1, ← Nat.zero_add (12 * r + c), h2]
    cases h1
    rfl
  · intro c hc
    obtain ⟨e1, e2, e3⟩ := panel_eq (c := c) hr (by omega)
    obtain ⟨col, h1, h2⟩ := hk _ e2
    rw [if_pos (by simp [middle, e3]; omega)] at h1
    rw [e1, hleds _ (midx_facts e2).1, ← Nat.zero_add (12 * r + c), h2]
    cases h1
    rfl

/-- The state machine of the controller can always transmit. -/
theorem tick_idx {t₀ rand rng gauge h s} (r : Controller.Run env (init env t₀ rand rng gauge) h s)
    {inp : Input} {node : Node}
    (ht : s.node.tick env.plat inp.now₁ inp.rx₁ inp.now₂ inp.rx₂ = .ok node) :
    node.nm.idx.toNat < 5 := by
  obtain ⟨h', rd, j, j', x⟩ := controller_is_a_node r
  obtain ⟨h'', x', _⟩ := x.tick ht
  exact (Run.wf ⟨rd, j, j', x'⟩).idx

/-- C85: a press in colour mode transmits a control packet of 60 seconds with exactly the colour
displayed next to the button; without a press nothing is transmitted besides the radio tick. -/
theorem colour_button {t₀ rand rng gauge h s}
    (run : Controller.Run env (init env t₀ rand rng gauge) h s) {s' : State} {inp : Input}
    (ha : Awake s inp) (hm : ColourMode inp) (hl : loop env inp s = .ok s') :
    (NonePressed inp → OnlyTicks env s inp s') ∧
    ∀ side r, FirstPressed inp side r → ∃ q, Transmits env s inp s' q ∧ q.type = .setControl ∧
      q.len = 4 ∧ q.data[0] = 60 ∧
      ∀ c, side.Beside c → s'.leds[panel r c]? = some ⟨q.data[1], q.data[2], q.data[3]⟩ := by
  obtain ⟨node, ht, hrm⟩ := loop_ok ha hl
  rw [runMode, modeOf_colour hm] at hrm
  obtain ⟨x, _, _, _, h1, h2⟩ := runColorMode_ok hrm
  refine ⟨fun hn => ?_, fun side r hf => ?_⟩
  · rw [OnlyTicks, h1 hn]; exact ht
  · obtain ⟨id, h3, h4⟩ := setEffect_sent (tick_idx run ht) (h2 side r hf)
    refine ⟨_, ⟨node, ht, h3⟩, rfl, rfl, by simp [Packet.writeControl, kSetEffectDelay], ?_⟩
    intro c hc
    rw [(colour_display ha hm hl (pressedIndex_some hf).2).1 side c hc]
    simp [Packet.writeControl]

/-- C86, C85: after a press in colour mode the controller itself believes the current effect to
be number 60 (the delay byte), whatever was displayed before. -/
theorem colour_button_effect_number {t₀ rand rng gauge h s}
    (run : Controller.Run env (init env t₀ rand rng gauge) h s) {s' : State} {inp : Input}
    (ha : Awake s inp) (hm : ColourMode inp) (hl : loop env inp s = .ok s')
    {side : Side} {r : Nat} (hf : FirstPressed inp side r) : s'.node.getEffectIndex = 60 := by
  obtain ⟨node, ht, hrm⟩ := loop_ok ha hl
  rw [runMode, modeOf_colour hm] at hrm
  obtain ⟨x, _, _, _, h1, h2⟩ := runColorMode_ok hrm
  obtain ⟨id, h3, h4⟩ := setEffect_sent (tick_idx run ht) (h2 side r hf)
  rw [Node.getEffectIndex, h4]
  simp [Packet.writeControl, kSetEffectDelay]

/-- A concrete case of the three theorems above: the middle left button in colour mode; its
colour (hue 256·2/6 = 85) is transmitted. -/
example : ∃ h s inp s', Controller.Run Demo.env Demo.start h s ∧ h ≠ [] ∧ Awake s inp ∧
    ColourMode inp ∧ loop Demo.env inp s = .ok s' ∧ FirstPressed inp .left 1 ∧
    s'.node.sent.getLast?.map (·.data.toList.take 4) = some [60, 85, 255, 255] ∧
    s'.leds[panel 1 3]? = some ⟨85, 255, 255⟩ := by
  obtain ⟨h, s, r, c⟩ := Demo.run_of_check
    (l := [{ Demo.quiet 1200 100 with left := Demo.second3 }, Demo.quiet 1100 900])
    (fun h s' => match h with
      | (s, inp, _) :: h => decide (h ≠ [] ∧ Awake s inp ∧ ColourMode inp ∧
          inp.left = Demo.second3 ∧
          s'.node.sent.getLast?.map (·.data.toList.take 4) = some [60, 85, 255, 255] ∧
          s'.leds[panel 1 3]? = some ⟨85, 255, 255⟩)
      | _ => false) (by decide +kernel)
  split at c
  · rename_i s₁ inp s₂ h
    obtain ⟨c1, c2, c3, c4, c5, c6⟩ := of_decide_eq_true c
    cases r with
    | cons _ r hl =>
      refine ⟨_, _, inp, _, r, c1, c2, c3, hl, ⟨?_, fun r' hr => ?_, nofun⟩, c5, c6⟩
      · simp [Side.pressed, c4, Demo.second3]
      · rw [Nat.lt_one_iff.1 hr]; simp [Side.pressed, c4, Demo.second3]
  · cases c

/-! ## C86: palette mode -/

/-- C86: in palette mode the five columns next to each side button show that button's palette
(palettes 8 to 13), spread over five LEDs: on the left from its first colour on, on the right
from a fifth on; the two middle columns are dark. -/
theorem palette_display (hp : env.plat = .arduino) {s s' : State} {inp : Input}
    (ha : Awake s inp) (hm : PaletteMode inp)
    (h : loop env inp s = .ok s') {r : Nat} (hr : r < 3) :
    (∀ side c, Side.Beside side c → ∃ col,
      (palettes.getD (8 + side.number r) []).getGradient env.F
        (BitVec.ofNat 16 (c % 6 * 65536 / 5)) = .ok col ∧
      s'.leds[panel r c]? = some (env.F.hsv2rgb col)) ∧
    ∀ c, c = 5 ∨ c = 6 → s'.leds[panel r c]? = some ⟨0, 0, 0⟩ := by
  obtain ⟨node, ht, hrm⟩ := loop_ok ha h
  rw [runMode, modeOf_palette hm] at hrm
  obtain ⟨x, hx, hl, _⟩ := runPaletteMode_ok hrm
  obtain ⟨_, _, _, hk, _⟩ := paint_spec (by decide) hx
  have hleds : ∀ j : Nat, j < 39 → s'.leds[j]? = x.1[j]? := fun j hj => by
    rw [hl, bottomLeds_get, if_neg (by omega), directRight_get _ _ _ _ (by omega),
      directLeft_get _ _ (by omega)]
  constructor
  · intro side c hc
    obtain ⟨hc12, _, hb⟩ := side_cases hc
    obtain ⟨e1, e2, _⟩ := panel_eq hr hc12
    obtain ⟨col, h1, h2⟩ := hk _ e2
    rw [(hb r hr).2, (hb r hr).1, if_neg (by decide),
      vecGet_eq_some (palettes_get (number_lt hr)), hp,
      show (12 * r + c) % 6 = c % 6 by omega] at h1
    simp only [bind, Except.bind, pure, Except.pure] at h1
    rw [palette_strip_colour env.F (by omega) (number_lt hr)] at h1
    rw [e1, hleds _ (midx_facts e2).1, ← Nat.zero_add (12 * r + c), h2]
    cases hg : Palette.getGradient env.F (Firefly.palettes.getD (8 + side.number r) [])
        (BitVec.ofNat 16 (c % 6 * 65536 / 5)) with
    | error f => rw [hg] at h1; cases h1
    | ok g =>
      rw [hg] at h1
      injection h1 with h1
      rw [← show _ = col from (Prod.ext_iff.1 h1).1]
      exact ⟨g, rfl, rfl⟩
  · intro c hc
    obtain ⟨e1, e2, e3⟩ := panel_eq (c := c) hr (by omega)
    obtain ⟨col, h1, h2⟩ := hk _ e2
    rw [if_pos (by simp [middle, e3]; omega)] at h1
    rw [e1, hleds _ (midx_facts e2).1, ← Nat.zero_add (12 * r + c), h2]
    injection h1 with h1
    rw [← show _ = col from (Prod.ext_iff.1 h1).1]
    rfl

/-- C86: a press in palette mode transmits a set-effect packet of 60 seconds with the button's
palette and the effect number the controller holds for current; without a press nothing is
transmitted besides the radio tick. -/
theorem palette_button {t₀ rand rng gauge h s}
    (run : Controller.Run env (init env t₀ rand rng gauge) h s) {s' : State} {inp : Input}
    (ha : Awake s inp) (hm : PaletteMode inp) (hl : loop env inp s = .ok s') :
    (NonePressed inp → OnlyTicks env s inp s') ∧
    ∀ side r, FirstPressed inp side r → ∃ node q,
      s.node.tick env.plat inp.now₁ inp.rx₁ inp.now₂ inp.rx₂ = .ok node ∧
      Transmits env s inp s' q ∧ q.type = .setEffect ∧ q.len = 3 ∧
      q.data[0] = node.getEffectIndex ∧ q.data[1] = 60 ∧
      q.data[2].toNat = 8 + side.number r := by
  obtain ⟨node, ht, hrm⟩ := loop_ok ha hl
  rw [runMode, modeOf_palette hm] at hrm
  obtain ⟨x, _, _, _, h1, h2⟩ := runPaletteMode_ok hrm
  refine ⟨fun hn => ?_, fun side r hf => ?_⟩
  · rw [OnlyTicks, (h1 hn).1]; exact ht
  · obtain ⟨h3, h4⟩ := h2 side r hf
    obtain ⟨id, h5, h6⟩ := setEffect_sent (tick_idx run ht) h4
    rw [h3] at h5
    refine ⟨node, _, ht, ⟨node, ht, h5⟩, rfl, rfl, ?_, ?_, ?_⟩
    · simp [Packet.writeSetEffect]; rfl
    · simp [Packet.writeSetEffect, kSetEffectDelay]
    · have := number_lt (side := side) (pressedIndex_some hf).2
      simp [Packet.writeSetEffect]; omega

/-- C86, the exception: after a press in colour mode, a press in palette mode transmits effect
number 60, which was never selected nor displayed anywhere.  (`colour_button_effect_number` says
that this is so after every press in colour mode, until another effect is heard or started.) -/
theorem palette_after_colour : ∃ h s inp s' q, Controller.Run Demo.env Demo.start h s ∧
    Awake s inp ∧ PaletteMode inp ∧ loop Demo.env inp s = .ok s' ∧ FirstPressed inp .left 1 ∧
    Transmits Demo.env s inp s' q ∧ q.type = .setEffect ∧ q.data[0] = 60 ∧ q.data[2] = 10 ∧
    (∀ e ∈ h, e.2.2.effectIndex = 0 ∧
      ∀ p ∈ e.1.node.sent, p.type = .setEffect → p.data[0] ≠ 60) := by
  obtain ⟨h, s, r, c⟩ := Demo.run_of_check
    (l := [{ Demo.quiet 1200 300 with left := Demo.second3 },
      { Demo.quiet 1100 100 with left := Demo.second3 }])
    (fun h s' => match h with
      | (s, inp, _) :: h => decide (Awake s inp ∧ PaletteMode inp ∧ inp.left = Demo.second3 ∧
          (∃ node ∈ (s.node.tick Demo.env.plat inp.now₁ inp.rx₁ inp.now₂ inp.rx₂).toOption,
            ∃ q ∈ s'.node.sent.getLast?,
              s'.node.sent = node.sent ++ [q] ∧ q.type = .setEffect ∧ q.data[0] = 60 ∧
              q.data[2] = 10) ∧
          (∀ e ∈ h, e.2.2.effectIndex = 0 ∧
            ∀ p ∈ e.1.node.sent, p.type = .setEffect → p.data[0] ≠ 60))
      | _ => false) (by decide +kernel)
  split at c
  · rename_i s₁ inp s₂ h
    obtain ⟨c1, c2, c3, ⟨node, hn, q, _, c4, c5, c6, c7⟩, c8⟩ := of_decide_eq_true c
    cases r with
    | cons _ r hl =>
      refine ⟨_, _, inp, _, q, r, c1, c2, hl, ⟨?_, fun r' hr => ?_, nofun⟩, ⟨node, ?_, c4⟩,
        c5, c6, c7, c8⟩
      · simp [Side.pressed, c3, Demo.second3]
      · rw [Nat.lt_one_iff.1 hr]; simp [Side.pressed, c3, Demo.second3]
      · cases ht : s₁.node.tick Demo.env.plat inp.now₁ inp.rx₁ inp.now₂ inp.rx₂ with
        | error _ => rw [ht] at hn; cases hn
        | ok n => rw [ht] at hn; cases hn; rfl
  · cases c

/-! ## C88, C89: effect mode -/

/-- The LEDs after an iteration in effect mode. -/
theorem effect_leds {s s' : State} {inp : Input} (ha : Awake s inp) (hm : EffectMode inp)
    (h : loop env inp s = .ok s') :
    ∃ e node leds, s.node.tick env.plat inp.now₁ inp.rx₁ inp.now₂ inp.rx₂ = .ok node ∧
      (leds = if s.prevMode ≠ .effect then dark else s.leds) ∧
      env.registry.getEffect env.plat (env.registry.uniqueEffectNumberToIndex s'.effectIndex) =
        .ok e ∧
      s'.leds[7]? = some (if s'.node.getCurrentState = .slave then ⟨255, 0, 0⟩ else ⟨0, 255, 0⟩) ∧
      s'.leds[9]? = some ⟨0, 0, if inp.broadcasting then 255 else 0⟩ ∧
      (∀ k < 12, ∃ c rng rng', e.getRGB env.F env.plat (BitVec.ofNat 8 k)
        (s'.node.getNetworkMillis (inp.clock k)) kRowStrip s'.setEffectPacket rng =
          .ok (c, rng') ∧ s'.leds[midx k]? = some c) ∧
      (∀ k < 12, ∃ c rng rng', Effect.displayColorPalette.getRGB env.F env.plat (BitVec.ofNat 8 k)
        (s'.node.getNetworkMillis (inp.clock (12 + k))) kRowStrip s'.setEffectPacket rng =
          .ok (c, rng') ∧ s'.leds[midx (12 + k)]? = some c) ∧
      ∀ j : Nat, j ≠ 7 → j ≠ 9 → (∀ k < 24, j ≠ midx k) →
        s'.leds[j]? = (effectModeButtonLeds inp leds)[j]? := by
  obtain ⟨node, ht, hrm⟩ := loop_ok ha h
  rw [runMode, modeOf_effect hm] at hrm
  obtain ⟨s₁, e, x, y, h1, h2, hx, hy, h3⟩ := runEffectMode_ok hrm
  have hs₁ : s₁.leds = (entered inp s node).leds := by
    unfold select at h1
    simp only [bind, Except.bind, pure, Except.pure] at h1
    repeat' split at h1
    all_goals first | cases h1; rfl | cases h1
  obtain ⟨rx, _, _, kx, ox⟩ := paint_spec (by decide) hx
  obtain ⟨ry, _, _, ky, oy⟩ := paint_spec (by decide) hy
  have hl : s'.leds = (y.1.set kStatusLeft
      (if s₁.node.getCurrentState = .slave then ⟨255, 0, 0⟩ else ⟨0, 255, 0⟩)).set
        kStatusRight ⟨0, 0, if inp.broadcasting then 255 else 0⟩ := by rw [h3]
  have hnode : s'.node = s₁.node := by rw [h3]
  have heff : s'.effectIndex = s₁.effectIndex := by rw [h3]
  have hother : ∀ j : Nat, j ≠ 7 → j ≠ 9 → s'.leds[j]? = y.1[j]? := fun j h7 h9 => by
    rw [hl, Vector.getElem?_set_ne _ (by exact fun h => h9 h.symm),
      Vector.getElem?_set_ne _ (by exact fun h => h7 h.symm)]
  refine ⟨e, node, _, ht, rfl, by rw [heff]; exact h2, ?_, ?_, ?_, ?_, ?_⟩
  · rw [hl, Vector.getElem?_set_ne _ (by decide), hnode]
    exact Vector.getElem?_set_self _
  · rw [hl]; exact Vector.getElem?_set_self _
  · intro k hk
    obtain ⟨c, h4, h5⟩ := kx k hk
    rw [Nat.zero_add] at h4 h5
    refine ⟨c, _, _, by rw [hnode]; exact h4, ?_⟩
    have := midx_facts (i := k) (by omega)
    rw [hother _ this.2.1 this.2.2.2.1, oy _ (fun k' hk' he => by
      have := midx_inj (by omega) (by omega) he; omega)]
    exact h5
  · intro k hk
    obtain ⟨c, h4, h5⟩ := ky k hk
    refine ⟨c, _, _, by rw [hnode]; exact h4, ?_⟩
    have := midx_facts (i := 12 + k) (by omega)
    rw [hother _ this.2.1 this.2.2.2.1]
    exact h5
  · intro j h7 h9 hj
    rw [hother j h7 h9, oy j fun k hk => hj (12 + k) (by omega), ox j fun k hk => by
      rw [Nat.zero_add]; exact hj k (by omega)]
    dsimp only
    rw [hs₁]
    simp only [entered, modeOf_effect hm]

/-- C89: in effect mode the top row shows the selected effect on a bright strip of twelve LEDs at
network time, and the middle row the selected palette. -/
theorem effect_display (hreg : shippedRegistry env.plat seeds = .ok env.registry)
    {t₀ rand rng gauge h s} (run : Controller.Run env (init env t₀ rand rng gauge) h s)
    {s' : State} {inp : Input} (ha : Awake s inp) (hm : EffectMode inp)
    (hl : loop env inp s = .ok s') :
    ∃ pkt : Packet, pkt.type = .setEffect ∧ pkt.len = 3 ∧ pkt.data[2] = s'.paletteIndex ∧
    ∃ hk : s'.effectIndex.toNat < (distinctEffects (shippedEffects seeds)).length,
    ∀ k < 12,
      (∃ c rng rng', ((distinctEffects (shippedEffects seeds))[s'.effectIndex.toNat]).getRGB env.F
        env.plat (BitVec.ofNat 8 k) (s'.node.getNetworkMillis (inp.clock k))
        (Strip.new 12 [.bright, .controller]) pkt rng = .ok (c, rng') ∧
        s'.leds[panel 0 k]? = some c) ∧
      ∃ c rng rng', Effect.displayColorPalette.getRGB env.F env.plat (BitVec.ofNat 8 k)
        (s'.node.getNetworkMillis (inp.clock (12 + k)))
        (Strip.new 12 [.bright, .controller]) pkt rng = .ok (c, rng') ∧
        s'.leds[panel 1 k]? = some c := by
  have hv := (selection_valid hreg (.cons inp run hl)).1
  obtain ⟨e, node, leds, ht, _, he, _, _, h1, h2, _⟩ := effect_leds ha hm hl
  obtain ⟨b1, b2, _, _, b5⟩ := (buffer_step hl).1 ha hm
  have hlook := (shipped_of hreg).lookup s'.effectIndex hv
  have hee : e = (distinctEffects (shippedEffects seeds))[s'.effectIndex.toNat]'hv := by
    rw [he] at hlook; cases hlook; rfl
  refine ⟨s'.setEffectPacket, b1, b2, b5, hv, fun k hk => ⟨?_, ?_⟩⟩
  · obtain ⟨c, r, r', h3, h4⟩ := h1 k hk
    rw [(panel_eq (r := 0) (by decide) hk).1, Nat.mul_zero, Nat.zero_add, ← hee]
    exact ⟨c, r, r', h3, h4⟩
  · obtain ⟨c, r, r', h3, h4⟩ := h2 k hk
    rw [(panel_eq (r := 1) (by decide) hk).1]
    exact ⟨c, r, r', h3, h4⟩

/-- C88: in effect mode the left status LED is red for a slave and green for the master, and the
right status LED is blue exactly while the "broadcasting" timer runs. -/
theorem status_leds {s s' : State} {inp : Input} (ha : Awake s inp) (hm : EffectMode inp)
    (h : loop env inp s = .ok s') :
    s'.leds[7] = (match s'.node.getCurrentState with
      | .slave => ⟨255, 0, 0⟩
      | .master => ⟨0, 255, 0⟩) ∧
    s'.leds[9] = ⟨0, 0, if inp.broadcasting then 255 else 0⟩ := by
  obtain ⟨_, _, _, _, _, _, h7, h9, _⟩ := effect_leds ha hm h
  rw [Vector.getElem?_eq_getElem (by decide)] at h7 h9
  refine ⟨?_, Option.some.inj h9⟩
  rw [Option.some.inj h7]
  cases s'.node.getCurrentState <;> rfl

theorem third_row_ne {c : Nat} (hc : c < 12) : panel 2 c < 39 ∧ panel 2 c ≠ 7 ∧ panel 2 c ≠ 9 ∧
    ∀ k < 24, panel 2 c ≠ midx k := by
  obtain ⟨h1, h2, _⟩ := panel_eq (r := 2) (by decide) hc
  have h3 := midx_facts h2
  rw [h1]
  refine ⟨h3.1, h3.2.1, h3.2.2.2.1, fun k hk he => ?_⟩
  have := midx_inj h2 (by omega) he
  omega

theorem dark_get {j : Nat} (h : j < 42) : dark[j]? = some ⟨0, 0, 0⟩ := by
  unfold dark
  rw [Vector.getElem?_replicate, if_pos h]; rfl

theorem prevMode_step {s s' : State} {inp : Input} (h : loop env inp s = .ok s') :
    (Awake s inp → s'.prevMode = modeOf inp.modeSwitch) ∧
    (¬ Awake s inp → s'.prevMode = s.prevMode) := by
  constructor
  · intro ha
    obtain ⟨node, ht, hrm⟩ := loop_ok ha h
    rcases mode_cases inp with hm | hm | hm
    · rw [runMode, modeOf_effect hm] at hrm
      obtain ⟨s₁, e, x, y, h1, _, _, _, h3⟩ := runEffectMode_ok hrm
      have : s₁.prevMode = (entered inp s node).prevMode := by
        unfold select at h1
        simp only [bind, Except.bind, pure, Except.pure] at h1
        repeat' split at h1
        all_goals first | cases h1; rfl | cases h1
      rw [h3]; exact this
    · rw [runMode, modeOf_colour hm] at hrm
      obtain ⟨x, _, _, h3, _⟩ := runColorMode_ok hrm
      rw [h3]; rfl
    · rw [runMode, modeOf_palette hm] at hrm
      obtain ⟨x, _, _, h3, _⟩ := runPaletteMode_ok hrm
      rw [h3]; rfl
  · intro ha
    rw [loop_asleep ha] at h
    cases h; rfl

/-- The LEDs that no mode but effect mode writes outside the panel and the lamps. -/
theorem direct_leds {s s' : State} {inp : Input} (ha : Awake s inp) (hm : ¬ EffectMode inp)
    (h : loop env inp s = .ok s') {j : Nat} (hj : j = 7 ∨ j = 8 ∨ j = 9) :
    s'.leds[j]? = (if s.prevMode ≠ modeOf inp.modeSwitch then dark else s.leds)[j]? := by
  obtain ⟨node, ht, hrm⟩ := loop_ok ha h
  have hne : ∀ k, k < 36 → j ≠ midx (0 + k) := fun k hk he => by
    have := midx_facts (i := 0 + k) (by omega)
    omega
  rcases mode_cases inp with h' | h' | h'
  · exact absurd h' hm
  · rw [runMode, modeOf_colour h'] at hrm
    obtain ⟨x, hx, hl, _⟩ := runColorMode_ok hrm
    obtain ⟨_, _, _, _, ho⟩ := paint_spec (by decide) hx
    rw [hl, bottomLeds_get, if_neg (by omega), directRight_get _ _ _ _ (by omega),
      directLeft_get _ _ (by omega), ho j hne]
    rfl
  · rw [runMode, modeOf_palette h'] at hrm
    obtain ⟨x, hx, hl, _⟩ := runPaletteMode_ok hrm
    obtain ⟨_, _, _, _, ho⟩ := paint_spec (by decide) hx
    rw [hl, bottomLeds_get, if_neg (by omega), directRight_get _ _ _ _ (by omega),
      directLeft_get _ _ (by omega), ho j hne]
    rfl

/-- C89: after every iteration in effect mode the bottom row is dark, whatever the controller
showed before; and the middle status LED is dark after every iteration. -/
theorem dark_leds {t₀ rand rng gauge h s}
    (run : Controller.Run env (init env t₀ rand rng gauge) h s) :
    (s.prevMode = .effect → ∀ c < 12, s.leds[panel 2 c]? = some ⟨0, 0, 0⟩) ∧
    s.leds[8]? = some ⟨0, 0, 0⟩ := by
  induction run with
  | nil =>
    have h0 : ∀ j : Nat, j < 42 → j ≠ 7 →
        (init env t₀ rand rng gauge).leds[j]? = some ⟨0, 0, 0⟩ := fun j hj h7 => by
      show (dark.set kStatusLeft gauge)[j]? = _
      rw [Vector.getElem?_set_ne _ (Ne.symm h7), dark_get hj]
    refine ⟨fun _ c hc => ?_, h0 8 (by decide) (by decide)⟩
    obtain ⟨h1, h2, _⟩ := third_row_ne hc
    exact h0 _ (by omega) h2
  | @cons h s s' inp _ hl ih =>
    by_cases ha : Awake s inp
    · by_cases hm : EffectMode inp
      · obtain ⟨e, node, leds, _, hleds, _, _, _, _, _, ho⟩ := effect_leds ha hm hl
        constructor
        · intro _ c hc
          obtain ⟨h1, h2, h3, h4⟩ := third_row_ne hc
          rw [ho _ h2 h3 h4, effectLamps_get _ _ h1, hleds]
          split
          · exact dark_get (by omega)
          · rename_i hp; exact ih.1 (Decidable.not_not.1 hp) c hc
        · rw [ho 8 (by decide) (by decide) (fun k hk he => by
              have := midx_facts (i := k) (by omega); omega),
            effectLamps_get _ _ (by decide), hleds]
          split
          · exact dark_get (by omega)
          · exact ih.2
      · constructor
        · intro hp
          rw [(prevMode_step hl).1 ha] at hp
          rcases mode_cases inp with h' | h' | h'
          · exact absurd h' hm
          · rw [modeOf_colour h'] at hp; cases hp
          · rw [modeOf_palette h'] at hp; cases hp
        · rw [direct_leds ha hm hl (.inr (.inl rfl))]
          split
          · exact dark_get (by omega)
          · exact ih.2
    · rw [loop_asleep ha] at hl
      cases hl
      constructor
      · intro hp c hc
        obtain ⟨h1, h2, _⟩ := third_row_ne hc
        dsimp only
        split
        · exact ih.1 hp c hc
        · rw [Vector.getElem?_set_ne _ (Ne.symm h2), dark_get (by omega)]
      · dsimp only
        split
        · exact ih.2
        · rw [Vector.getElem?_set_ne _ (by decide), dark_get (by omega)]

/-- A concrete case of C88 and C89: after colour mode lit the bottom row, effect mode darkens it,
the status LEDs show a slave that is not broadcasting, and the middle row the first colours of
palette 0. -/
example : ∃ h s, Controller.Run Demo.env Demo.start h s ∧ s.prevMode = .effect ∧ h.length = 2 ∧
    (∃ e ∈ h, e.1.leds[panel 2 3]? ≠ some ⟨0, 0, 0⟩) ∧ s.leds[7]? = some (⟨255, 0, 0⟩ : CRGB) ∧
    s.leds[9]? = some (⟨0, 0, 0⟩ : CRGB) ∧ s.leds[panel 2 3]? = some ⟨0, 0, 0⟩ ∧
    s.leds[panel 1 3]? ≠ some ⟨0, 0, 0⟩ := by
  obtain ⟨h, s, r, c⟩ := Demo.run_of_check
    (l := [Demo.quiet 1200 900, Demo.quiet 1100 100])
    (fun h s => decide (s.prevMode = .effect ∧ h.length = 2 ∧
      (∃ e ∈ h, e.1.leds[panel 2 3]? ≠ some ⟨0, 0, 0⟩) ∧ s.leds[7]? = some (⟨255, 0, 0⟩ : CRGB) ∧
      s.leds[9]? = some (⟨0, 0, 0⟩ : CRGB) ∧ s.leds[panel 2 3]? = some ⟨0, 0, 0⟩ ∧
      s.leds[panel 1 3]? ≠ some ⟨0, 0, 0⟩)) (by decide +kernel)
  exact ⟨h, s, r, of_decide_eq_true c⟩

/-! ## C90: low battery -/

/-- C90: an iteration suspended for low battery neither receives nor transmits nor changes any
state of the radio, the selection or the mode.  The first one darkens all LEDs but a dim red
left status LED; the following ones leave the LEDs as they are. -/
theorem low_battery {s s' : State} {inp : Input} (ha : ¬ Awake s inp)
    (h : loop env inp s = .ok s') :
    s' = { s with low := true, leds := s'.leds } ∧
      (s.low = false → ShutDownLeds s'.leds) ∧ (s.low = true → s'.leds = s.leds) := by
  rw [loop_asleep ha] at h
  cases h
  refine ⟨rfl, fun hl => ?_, fun hl => ?_⟩
  · intro j hj
    simp only [hl, Bool.false_eq_true, if_false]
    split
    · rename_i h7; subst h7; exact Vector.getElem_set_self _
    · rename_i h7
      rw [Vector.getElem_set_ne _ _ (Ne.symm h7)]
      simp [dark]; rfl
  · simp [hl]

/-- C90: whatever happens in between, as long as every iteration is suspended the radio is
untouched. -/
theorem low_battery_silent {s₀ : State} {h s} (run : Controller.Run env s₀ h s)
    (hall : ∀ e ∈ h, ¬ Awake e.1 e.2.1) : s.node = s₀.node := by
  induction run with
  | nil => rfl
  | cons inp _ hl ih =>
    rw [(low_battery (hall _ List.mem_cons_self) hl).1]
    exact ih fun e he => hall e (List.mem_cons_of_mem _ he)

/-- C90, the exception: when the battery has recovered, a controller whose switch stayed at one
of the direct modes goes on showing the low-battery light. -/
theorem low_battery_light_stays {s s₁ s₂ : State} {inp₁ inp₂ : Input}
    (hl : s.low = false) (ha₁ : ¬ Awake s inp₁) (h₁ : loop env inp₁ s = .ok s₁)
    (ha₂ : Awake s₁ inp₂) (hm : ¬ EffectMode inp₂) (hs : s.prevMode = modeOf inp₂.modeSwitch)
    (h₂ : loop env inp₂ s₁ = .ok s₂) : s₂.leds[7] = ⟨8, 0, 0⟩ := by
  have h3 := (low_battery ha₁ h₁).2.1 hl 7 (by decide)
  have h4 := direct_leds ha₂ hm h₂ (.inl rfl)
  rw [(prevMode_step h₁).2 ha₁, if_neg (by simpa using hs),
    Vector.getElem?_eq_getElem (by decide), Vector.getElem?_eq_getElem (by decide), h3] at h4
  simpa using h4

/-- A concrete case: colour mode, a low reading, a good reading. -/
example : ∃ h s, Controller.Run Demo.env Demo.start h s ∧ h.length = 3 ∧
    (∃ e ∈ h, ¬ Awake e.1 e.2.1) ∧ s.low = false ∧ s.leds[7]? = some (⟨8, 0, 0⟩ : CRGB) ∧
    s.leds[panel 2 3]? ≠ some ⟨0, 0, 0⟩ := by
  obtain ⟨h, s, r, c⟩ := Demo.run_of_check
    (l := [Demo.quiet 1200 100, { Demo.quiet 1150 100 with battery := ⟨true, 700⟩ },
      Demo.quiet 1100 100])
    (fun h s => decide (h.length = 3 ∧
      (∃ e ∈ h, ¬ Awake e.1 e.2.1) ∧ s.low = false ∧ s.leds[7]? = some (⟨8, 0, 0⟩ : CRGB) ∧
      s.leds[panel 2 3]? ≠ some ⟨0, 0, 0⟩)) (by decide +kernel)
  exact ⟨h, s, r, of_decide_eq_true c⟩

/-! ## C87: lamps -/

theorem directLeft_lamp (inp : Input) (leds : Leds) :
    (directLeftLeds inp leds)[41]? = some
      ⟨expectedLamp inp .left 1, expectedLamp inp .left 0, expectedLamp inp .left 2⟩ := by
  have e0 : expectedLamp inp .left 0 = if inp.left.b0 then 255 else 64 := by
    simp [expectedLamp, Side.pressed]
  have e1 : expectedLamp inp .left 1 = if inp.left.b1 ∧ inp.left.b0 = false then 255 else 64 := by
    have : (∀ k' < 1, Side.pressed inp .left k' = false) ↔ inp.left.b0 = false :=
      ⟨fun h => h 0 (by decide), fun h k' hk => by rw [Nat.lt_one_iff.1 hk]; exact h⟩
    simp only [expectedLamp, this]; rfl
  have e2 : expectedLamp inp .left 2 =
      if inp.left.b2 ∧ inp.left.b0 = false ∧ inp.left.b1 = false then 255 else 64 := by
    have : (∀ k' < 2, Side.pressed inp .left k' = false) ↔
        (inp.left.b0 = false ∧ inp.left.b1 = false) :=
      ⟨fun h => ⟨h 0 (by decide), h 1 (by decide)⟩, fun h k' hk => by
        match k' with
        | 0 => exact h.1
        | 1 => exact h.2⟩
    simp only [expectedLamp, this]; rfl
  rw [e0, e1, e2]
  unfold directLeftLeds
  cases inp.left.b0 <;> cases inp.left.b1 <;> cases inp.left.b2 <;>
    simp only [leftLeds_get, kPressed, kActive, ↓reduceIte, Bool.false_eq_true, and_true, and_false, and_self, false_and, reduceCtorEq, Nat.reduceEqDiff]

theorem directRight_lamp (inp : Input) (leds : Leds) :
    (directRightLeds inp inp.right.b1 inp.right.b2 leds)[39]? = some
      ⟨expectedLamp inp .right 1, expectedLamp inp .right 2, expectedLamp inp .right 0⟩ := by
  have e0 : expectedLamp inp .right 0 = if inp.right.b0 then 255 else 64 := by
    simp [expectedLamp, Side.pressed]
  have e1 : expectedLamp inp .right 1 = if inp.right.b1 ∧ inp.right.b0 = false then 255 else 64 := by
    have : (∀ k' < 1, Side.pressed inp .right k' = false) ↔ inp.right.b0 = false :=
      ⟨fun h => h 0 (by decide), fun h k' hk => by rw [Nat.lt_one_iff.1 hk]; exact h⟩
    simp only [expectedLamp, this]; rfl
  have e2 : expectedLamp inp .right 2 =
      if inp.right.b2 ∧ inp.right.b0 = false ∧ inp.right.b1 = false then 255 else 64 := by
    have : (∀ k' < 2, Side.pressed inp .right k' = false) ↔
        (inp.right.b0 = false ∧ inp.right.b1 = false) :=
      ⟨fun h => ⟨h 0 (by decide), h 1 (by decide)⟩, fun h k' hk => by
        match k' with
        | 0 => exact h.1
        | 1 => exact h.2⟩
    simp only [expectedLamp, this]; rfl
  rw [e0, e1, e2]
  unfold directRightLeds
  cases inp.right.b0 <;> cases inp.right.b1 <;> cases inp.right.b2 <;>
    simp only [rightLeds_get, kPressed, kActive, ↓reduceIte, Bool.false_eq_true, and_true, and_false, and_self, false_and, reduceCtorEq, Nat.reduceEqDiff]

theorem lamp_of_led {side : Side} {leds : Leds} {a b c : U8}
    (h : match side with
      | .left => leds[41]? = some ⟨b, a, c⟩
      | .right => leds[39]? = some ⟨b, c, a⟩) :
    side.lamp 0 leds = a ∧ side.lamp 1 leds = b ∧ side.lamp 2 leds = c := by
  cases side with
  | left =>
    have h : leds[41]? = some ⟨b, a, c⟩ := h
    rw [Vector.getElem?_eq_getElem (by decide)] at h
    have h := Option.some.inj h
    simp [Side.lamp, h]
  | right =>
    have h : leds[39]? = some ⟨b, c, a⟩ := h
    rw [Vector.getElem?_eq_getElem (by decide)] at h
    have h := Option.some.inj h
    simp [Side.lamp, h]

/-- C87: in palette mode the lamp of the first button pressed on a side is bright, all other
side lamps are dimmed, and the bottom lamps are off. -/
theorem lamps_palette_mode {s s' : State} {inp : Input} (ha : Awake s inp) (hm : PaletteMode inp)
    (h : loop env inp s = .ok s') {k : Nat} (hk : k < 3) :
    (∀ side : Side, side.lamp k s'.leds = expectedLamp inp side k) ∧ bottomLamp k s'.leds = 0 := by
  obtain ⟨node, ht, hrm⟩ := loop_ok ha h
  rw [runMode, modeOf_palette hm] at hrm
  obtain ⟨x, hx, hl, _⟩ := runPaletteMode_ok hrm
  constructor
  · intro side
    have key : side.lamp 0 s'.leds = expectedLamp inp side 0 ∧
        side.lamp 1 s'.leds = expectedLamp inp side 1 ∧
        side.lamp 2 s'.leds = expectedLamp inp side 2 := by
      apply lamp_of_led
      rw [hl]
      cases side
      · show (setBottomButtonLeds _ _ _ _)[41]? = _
        rw [bottomLeds_get, if_neg (by decide), directRight_get _ _ _ _ (by decide),
          directLeft_lamp]
      · show (setBottomButtonLeds _ _ _ _)[39]? = _
        rw [bottomLeds_get, if_neg (by decide), directRight_lamp]
    match k with
    | 0 => exact key.1
    | 1 => exact key.2.1
    | 2 => exact key.2.2
  · have : s'.leds[40]? = some ⟨0, 0, 0⟩ := by rw [hl, bottomLeds_get, if_pos rfl]
    rw [Vector.getElem?_eq_getElem (by decide)] at this
    have := Option.some.inj this
    match k with
    | 0 | 1 | 2 => simp [bottomLamp, this]

/-- C87: in colour mode the left lamps behave in the same way, and so does the top right one; but
the middle and bottom right lamps react to the *left* buttons of their rows (while the top right
button is not pressed). -/
theorem lamps_colour_mode {s s' : State} {inp : Input} (ha : Awake s inp) (hm : ColourMode inp)
    (h : loop env inp s = .ok s') {k : Nat} (hk : k < 3) :
    Side.left.lamp k s'.leds = expectedLamp inp .left k ∧
    bottomLamp k s'.leds = 0 ∧
    Side.right.lamp 0 s'.leds = expectedLamp inp .right 0 ∧
    (inp.right.b0 = false →
      Side.right.lamp 1 s'.leds = (if inp.left.b1 then 255 else 64) ∧
      Side.right.lamp 2 s'.leds = (if inp.left.b2 ∧ inp.left.b1 = false then 255 else 64)) := by
  obtain ⟨node, ht, hrm⟩ := loop_ok ha h
  rw [runMode, modeOf_colour hm] at hrm
  obtain ⟨x, hx, hl, _⟩ := runColorMode_ok hrm
  have key : Side.left.lamp 0 s'.leds = expectedLamp inp .left 0 ∧
      Side.left.lamp 1 s'.leds = expectedLamp inp .left 1 ∧
      Side.left.lamp 2 s'.leds = expectedLamp inp .left 2 := by
    apply lamp_of_led
    rw [hl]
    show (setBottomButtonLeds _ _ _ _)[41]? = _
    rw [bottomLeds_get, if_neg (by decide), directRight_get _ _ _ _ (by decide), directLeft_lamp]
  have key' : s'.leds[39]? = some (if inp.right.b0 then ⟨64, 64, 255⟩
      else if inp.left.b1 then ⟨255, 64, 64⟩ else if inp.left.b2 then ⟨64, 255, 64⟩
      else ⟨64, 64, 64⟩) := by
    rw [hl, bottomLeds_get, if_neg (by decide)]
    unfold directRightLeds
    cases inp.right.b0 <;> cases inp.left.b1 <;> cases inp.left.b2 <;>
      simp only [rightLeds_get, kPressed, kActive, ↓reduceIte, Bool.false_eq_true, and_true, and_false, and_self, false_and, reduceCtorEq, Nat.reduceEqDiff]
  rw [Vector.getElem?_eq_getElem (by decide)] at key'
  have key' := Option.some.inj key'
  refine ⟨?_, ?_, ?_, ?_⟩
  · match k with
    | 0 => exact key.1
    | 1 => exact key.2.1
    | 2 => exact key.2.2
  · have : s'.leds[40]? = some ⟨0, 0, 0⟩ := by rw [hl, bottomLeds_get, if_pos rfl]
    rw [Vector.getElem?_eq_getElem (by decide)] at this
    have := Option.some.inj this
    match k with
    | 0 | 1 | 2 => simp [bottomLamp, this]
  · have : Side.right.lamp 0 s'.leds = s'.leds[39].b := rfl
    rw [this, key', expectedLamp]
    simp only [Side.pressed]
    cases inp.right.b0 <;> cases inp.left.b1 <;> cases inp.left.b2 <;> simp
  · intro hr
    have e1 : Side.right.lamp 1 s'.leds = s'.leds[39].r := rfl
    have e2 : Side.right.lamp 2 s'.leds = s'.leds[39].g := rfl
    rw [e1, e2, key', hr]
    cases inp.left.b1 <;> cases inp.left.b2 <;> simp

/-- C87: in effect mode the left lamps and the broadcast lamp behave in the same way (the third
left lamp is off); but the middle right lamp reacts to the *left* middle button (while the top
right button is not pressed). -/
theorem lamps_effect_mode {s s' : State} {inp : Input} (ha : Awake s inp) (hm : EffectMode inp)
    (h : loop env inp s = .ok s') :
    Side.left.lamp 0 s'.leds = expectedLamp inp .left 0 ∧
    Side.left.lamp 1 s'.leds = expectedLamp inp .left 1 ∧
    Side.left.lamp 2 s'.leds = 0 ∧
    bottomLamp 0 s'.leds = (if inp.bottom.b0 then 255 else 64) ∧
    Side.right.lamp 0 s'.leds = expectedLamp inp .right 0 ∧
    (inp.right.b0 = false → Side.right.lamp 1 s'.leds = if inp.left.b1 then 255 else 64) := by
  obtain ⟨e, node, leds, _, _, _, _, _, _, _, ho⟩ := effect_leds ha hm h
  have hne : ∀ j : Nat, 39 ≤ j → ∀ k < 24, j ≠ midx k := fun j hj k hk he => by
    have := midx_facts (i := k) (by omega); omega
  have e0 : expectedLamp inp .left 0 = if inp.left.b0 then 255 else 64 := by
    simp [expectedLamp, Side.pressed]
  have e1 : expectedLamp inp .left 1 = if inp.left.b1 ∧ inp.left.b0 = false then 255 else 64 := by
    have : (∀ k' < 1, Side.pressed inp .left k' = false) ↔ inp.left.b0 = false :=
      ⟨fun h => h 0 (by decide), fun h k' hk => by rw [Nat.lt_one_iff.1 hk]; exact h⟩
    simp only [expectedLamp, this]; rfl
  have e2 : expectedLamp inp .right 0 = if inp.right.b0 then 255 else 64 := by
    simp [expectedLamp, Side.pressed]
  have h41 : s'.leds[41]? = some (if inp.left.b0 then ⟨64, 255, 0⟩
      else if inp.left.b1 then ⟨255, 64, 0⟩ else ⟨64, 64, 0⟩) := by
    rw [ho 41 (by decide) (by decide) (hne 41 (by decide))]
    unfold effectModeButtonLeds
    cases inp.left.b0 <;> cases inp.left.b1 <;> cases inp.right.b0 <;> cases inp.bottom.b0 <;>
      simp only [bottomLeds_get, rightLeds_get, leftLeds_get, kPressed, kActive, ↓reduceIte, Bool.false_eq_true, and_true, and_false, and_self, false_and, reduceCtorEq, Nat.reduceEqDiff]
  have h39 : s'.leds[39]? = some (if inp.right.b0 then ⟨64, 0, 255⟩
      else if inp.left.b1 then ⟨255, 0, 64⟩ else ⟨64, 0, 64⟩) := by
    rw [ho 39 (by decide) (by decide) (hne 39 (by decide))]
    unfold effectModeButtonLeds
    cases inp.left.b0 <;> cases inp.left.b1 <;> cases inp.right.b0 <;> cases inp.bottom.b0 <;>
      simp only [bottomLeds_get, rightLeds_get, leftLeds_get, kPressed, kActive, ↓reduceIte, Bool.false_eq_true, and_true, and_false, and_self, false_and, reduceCtorEq, Nat.reduceEqDiff]
  have h40 : s'.leds[40]? = some (if inp.bottom.b0 then ⟨255, 0, 0⟩ else ⟨64, 0, 0⟩) := by
    rw [ho 40 (by decide) (by decide) (hne 40 (by decide))]
    unfold effectModeButtonLeds
    cases inp.bottom.b0 <;> simp only [bottomLeds_get, kPressed, kActive, ↓reduceIte, Bool.false_eq_true, and_true, and_false, and_self, false_and, reduceCtorEq, Nat.reduceEqDiff]
  rw [Vector.getElem?_eq_getElem (by decide)] at h39 h40 h41
  have h39 := Option.some.inj h39
  have h40 := Option.some.inj h40
  have h41 := Option.some.inj h41
  rw [e0, e1, e2]
  simp only [Side.lamp, bottomLamp, h39, h40, h41]
  cases inp.left.b0 <;> cases inp.left.b1 <;> cases inp.right.b0 <;> cases inp.bottom.b0 <;> simp

/-- C87, the exception, concretely: in effect mode, pressing the middle left button lights the
middle right lamp too, and pressing the middle right button does not light its lamp. -/
theorem right_lamp_wrong : ∃ h s h' s', Controller.Run Demo.env Demo.start h s ∧
    Controller.Run Demo.env Demo.start h' s' ∧
    (∃ e ∈ h, Side.right.pressed e.2.1 1 = false ∧ Side.right.lamp 1 s.leds = 255) ∧
    (∃ e ∈ h', Side.right.pressed e.2.1 1 = true ∧ Side.right.lamp 1 s'.leds = 64) ∧
    h.length = 1 ∧ h'.length = 1 := by
  obtain ⟨h, s, r, c⟩ := Demo.run_of_check
    (l := [{ Demo.quiet 1100 900 with left := Demo.second3 }])
    (fun h s => decide ((∃ e ∈ h, Side.right.pressed e.2.1 1 = false ∧
      Side.right.lamp 1 s.leds = 255) ∧ h.length = 1)) (by decide +kernel)
  obtain ⟨h', s', r', c'⟩ := Demo.run_of_check
    (l := [{ Demo.quiet 1100 900 with right := Demo.second3 }])
    (fun h s => decide ((∃ e ∈ h, Side.right.pressed e.2.1 1 = true ∧
      Side.right.lamp 1 s.leds = 64) ∧ h.length = 1)) (by decide +kernel)
  have c := of_decide_eq_true c
  have c' := of_decide_eq_true c'
  exact ⟨h, s, h', s', r, r', c.1, c'.1, c.2, c'.2⟩

end Firefly.Props
