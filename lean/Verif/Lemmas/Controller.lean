import Verif.Spec.Controller
import Verif.Lemmas.History
import Verif.Props.Effects

/-! # Helper lemmas about the controller -/

namespace Firefly.Controller
open Firefly Spec

/-- The index of main LED `i`. -/
abbrev midx (i : Nat) : Nat := mainLedIndex (BitVec.ofNat 8 i)

theorem midx_facts_fin : ∀ i : Fin 36, midx i < 39 ∧ midx i ≠ 7 ∧ midx i ≠ 8 ∧ midx i ≠ 9 ∧
    midx i = panel (i / 12) (i % 12) := by decide +kernel

theorem midx_inj_fin : ∀ i j : Fin 36, midx i = midx j → i = j := by decide +kernel

theorem midx_facts {i : Nat} (h : i < 36) : midx i < 39 ∧ midx i ≠ 7 ∧ midx i ≠ 8 ∧ midx i ≠ 9 ∧
    midx i = panel (i / 12) (i % 12) := midx_facts_fin ⟨i, h⟩

theorem midx_inj {i j : Nat} (hi : i < 36) (hj : j < 36) (h : midx i = midx j) : i = j :=
  congrArg Fin.val (midx_inj_fin ⟨i, hi⟩ ⟨j, hj⟩ h)

theorem setMainLed_ok {i : Nat} (h : i < 36) (leds : Leds) (c : CRGB) :
    setMainLed leds (BitVec.ofNat 8 i) c =
      .ok (leds.set (midx i) c (Nat.lt_trans (midx_facts h).1 (by decide))) := by
  rw [setMainLed, dif_pos]

theorem paint_succ (colour : Nat → σ → Except Fault (CRGB × σ)) (first n : Nat) (x : Leds × σ) :
    paint colour first (n + 1) x = (paint colour first n x).bind fun y =>
      (colour n y.2).bind fun r =>
        (setMainLed y.1 (BitVec.ofNat 8 (first + n)) r.1).bind fun leds => .ok (leds, r.2) := by
  unfold paint
  rw [List.range_succ, List.foldlM_append]
  simp only [List.foldlM_cons, List.foldlM_nil, bind, Except.bind, pure, Except.pure]
  generalize List.foldlM (m := Except Fault) _ x (List.range n) = e
  cases e with
  | error f => rfl
  | ok y =>
    dsimp only
    cases colour n y.2 with
    | error f => rfl
    | ok r =>
      dsimp only
      cases setMainLed y.1 (BitVec.ofNat 8 (first + n)) r.1 <;> rfl

theorem paint_spec {colour : Nat → σ → Except Fault (CRGB × σ)} {first n : Nat} {x y : Leds × σ}
    (hn : first + n ≤ 36) (h : paint colour first n x = .ok y) :
    ∃ r : Nat → σ, r 0 = x.2 ∧ r n = y.2 ∧
      (∀ k, k < n → ∃ c, colour k (r k) = .ok (c, r (k + 1)) ∧
        y.1[midx (first + k)]? = some c) ∧
      ∀ j : Nat, (∀ k, k < n → j ≠ midx (first + k)) → y.1[j]? = x.1[j]? := by
  induction n generalizing y with
  | zero => cases h; exact ⟨fun _ => x.2, rfl, rfl, nofun, fun _ _ => rfl⟩
  | succ n ih =>
    rw [paint_succ] at h
    cases h1 : paint colour first n x with
    | error f => rw [h1] at h; cases h
    | ok z =>
      rw [h1] at h
      cases h2 : colour n z.2 with
      | error f => simp only [Except.bind, h2] at h; cases h
      | ok c =>
        simp only [Except.bind, h2] at h
        rw [setMainLed_ok (by omega)] at h
        cases h
        obtain ⟨r, r0, rn, hk, ho⟩ := ih (by omega) h1
        refine ⟨fun k => if k = n + 1 then c.2 else r k, ?_, by simp, ?_, ?_⟩
        · dsimp only; rw [if_neg (by omega)]; exact r0
        · intro k hkn
          dsimp only
          rw [if_neg (by omega : k ≠ n + 1)]
          by_cases hkn' : k = n
          · subst hkn'
            refine ⟨c.1, ?_, ?_⟩
            · rw [if_pos rfl, rn, h2]
            · rw [Vector.getElem?_set_self]
          · obtain ⟨c', hc, hl⟩ := hk k (by omega)
            refine ⟨c', ?_, ?_⟩
            · rw [if_neg (by omega)]; exact hc
            · rw [Vector.getElem?_set_ne _ (fun e => hkn' (by
                have := midx_inj (by omega) (by omega) e; omega))]
              exact hl
        · intro j hj
          dsimp only
          rw [Vector.getElem?_set_ne _ (fun e => hj n (by omega) e.symm)]
          exact ho j fun k hk => hj k (by omega)

theorem paint_ok {colour : Nat → σ → Except Fault (CRGB × σ)} {first n : Nat} (x : Leds × σ)
    (hn : first + n ≤ 36) (hc : ∀ k, k < n → ∀ st, ∃ r, colour k st = .ok r) :
    ∃ y, paint colour first n x = .ok y := by
  induction n with
  | zero => exact ⟨x, rfl⟩
  | succ n ih =>
    obtain ⟨y, hy⟩ := ih (by omega) fun k hk => hc k (by omega)
    obtain ⟨r, hr⟩ := hc n (by omega) y.2
    rw [paint_succ, hy]
    simp only [Except.bind, hr, setMainLed_ok (show first + n < 36 by omega)]
    exact ⟨_, rfl⟩

/-! ## The main loop -/

theorem battery_cases (s : State) (inp : Input) :
    (Awake s inp ∧ (Battery.step .controller s.low inp.battery).shutDown = false) ∨
    (¬ Awake s inp ∧ (Battery.step .controller s.low inp.battery).low = true ∧
      ((Battery.step .controller s.low inp.battery).shutDown = !s.low)) := by
  have h : (Battery.rawReading Battery.Kind.controller.lowCutoff) ≤
    (Battery.rawReading Battery.Kind.controller.resume) := by decide
  unfold Awake Battery.step
  cases inp.battery.expired
  · simp
  · simp only [if_true]
    cases s.low <;> by_cases h1 : inp.battery.value < Battery.rawReading Battery.Kind.controller.lowCutoff <;>
      by_cases h2 : Battery.rawReading Battery.Kind.controller.resume < inp.battery.value <;>
      simp [h1, h2]
    simp only [BitVec.lt_def, BitVec.le_def] at *
    omega

/-- The state at the start of the mode's function. -/
def entered (inp : Input) (s : State) (node : Node) : State :=
  { s with
    node := node, mode := modeOf inp.modeSwitch, prevMode := modeOf inp.modeSwitch
    leds := if s.prevMode ≠ modeOf inp.modeSwitch then dark else s.leds
    low := (Battery.step .controller s.low inp.battery).low }

/-- The mode's function. -/
def runMode (env : Env) (inp : Input) (s : State) : Except Fault State :=
  match modeOf inp.modeSwitch with
  | .effect => runEffectMode env inp s
  | .directColor => runColorMode env inp s
  | .directPalette => runPaletteMode env inp s

theorem loop_awake {env : Env} {inp : Input} {s : State} (h : Awake s inp) :
    loop env inp s = (s.node.tick env.plat inp.now₁ inp.rx₁ inp.now₂ inp.rx₂).bind fun node =>
      runMode env inp (entered inp s node) := by
  have h2 : (Battery.step .controller s.low inp.battery).shutDown = false := by
    rcases battery_cases s inp with h' | h'
    · exact h'.2
    · exact absurd h h'.1
  unfold Awake at h
  simp only [loop, h, h2, bind, Except.bind, pure, Except.pure]
  simp only [Bool.false_eq_true, if_false, Bool.not_true]
  rfl

theorem loop_asleep {env : Env} {inp : Input} {s : State} (h : ¬ Awake s inp) :
    loop env inp s = .ok { s with
      low := true
      leds := if s.low then s.leds else dark.set kStatusLeft ⟨8, 0, 0⟩ } := by
  rcases battery_cases s inp with h' | ⟨_, h1, h2⟩
  · exact absurd h'.1 h
  · unfold Awake at h
    simp only [Bool.not_eq_true] at h
    simp only [loop, h, h1, h2, bind, Except.bind, pure, Except.pure]
    cases s.low <;> rfl

theorem modeOf_effect {inp : Input} (h : EffectMode inp) : modeOf inp.modeSwitch = .effect := by
  unfold EffectMode at h
  unfold modeOf
  rw [if_neg, if_neg]
  · rw [BitVec.lt_def, show kMode2Threshold.toNat = 512 from rfl]; omega
  · rw [BitVec.lt_def, show kMode1Threshold.toNat = 173 from rfl]; omega

theorem modeOf_colour {inp : Input} (h : ColourMode inp) :
    modeOf inp.modeSwitch = .directColor := by
  unfold ColourMode at h
  unfold modeOf
  rw [if_pos]
  rw [BitVec.lt_def, show kMode1Threshold.toNat = 173 from rfl]; omega

theorem modeOf_palette {inp : Input} (h : PaletteMode inp) :
    modeOf inp.modeSwitch = .directPalette := by
  obtain ⟨h1, h2⟩ := h
  unfold modeOf
  rw [if_neg, if_pos]
  · rw [BitVec.lt_def, show kMode2Threshold.toNat = 512 from rfl]; omega
  · rw [BitVec.lt_def, show kMode1Threshold.toNat = 173 from rfl]; omega

theorem mode_cases (inp : Input) : EffectMode inp ∨ ColourMode inp ∨ PaletteMode inp := by
  unfold EffectMode ColourMode PaletteMode; omega

/-- An iteration that runs. -/
theorem loop_ok {env : Env} {inp : Input} {s s' : State} (h : Awake s inp)
    (hl : loop env inp s = .ok s') :
    ∃ node, s.node.tick env.plat inp.now₁ inp.rx₁ inp.now₂ inp.rx₂ = .ok node ∧
      runMode env inp (entered inp s node) = .ok s' := by
  rw [loop_awake h] at hl
  cases ht : s.node.tick env.plat inp.now₁ inp.rx₁ inp.now₂ inp.rx₂ with
  | error f => rw [ht] at hl; cases hl
  | ok node => rw [ht] at hl; exact ⟨node, rfl, hl⟩

/-! ## The buttons of effect mode -/

theorem numPalettes_eq : numPalettes = 22 := by decide

theorem prev_toNat {n : Nat} (hn : n ≤ 255) (i : U8) (hi : i.toNat < n) :
    (BitVec.ofNat 8 ((i.toNat + n - 1) % n)).toNat = prevOf n i.toNat := by
  rw [BitVec.toNat_ofNat]
  have : (i.toNat + n - 1) % n < n := Nat.mod_lt _ (by omega)
  rw [Nat.mod_eq_of_lt (by omega : (i.toNat + n - 1) % n < 2 ^ 8)]
  unfold prevOf
  split
  · rename_i h; rw [h, Nat.mod_eq_of_lt (by omega)]; omega
  · rw [show i.toNat + n - 1 = (i.toNat - 1) + n by omega, Nat.add_mod_right,
      Nat.mod_eq_of_lt (by omega)]

theorem next_toNat {n : Nat} (hn : n ≤ 255) (i : U8) (hi : i.toNat < n) :
    (BitVec.ofNat 8 ((i.toNat + 1) % n)).toNat = nextOf n i.toNat := by
  rw [BitVec.toNat_ofNat]
  have : (i.toNat + 1) % n < n := Nat.mod_lt _ (by omega)
  rw [Nat.mod_eq_of_lt (by omega : (i.toNat + 1) % n < 2 ^ 8)]
  unfold nextOf
  split
  · rename_i h; rw [h, Nat.mod_self]
  · rw [Nat.mod_eq_of_lt (by omega)]

/-- What the shipped registry offers to the controller. -/
structure Shipped (env : Env) (seeds : EffectSeeds) : Prop where
  unique : env.registry.getNumUniqueEffects = 19
  lookup : ∀ (k : U8) (hk : k.toNat < (distinctEffects (shippedEffects seeds)).length),
    env.registry.getEffect env.plat (env.registry.uniqueEffectNumberToIndex k) =
      .ok (distinctEffects (shippedEffects seeds))[k.toNat]
  numEffects : env.registry.getNumEffects = 27

theorem shipped_length (seeds : EffectSeeds) :
    (distinctEffects (shippedEffects seeds)).length = 19 := rfl

theorem shipped_of {env : Env} {seeds : EffectSeeds}
    (h : shippedRegistry env.plat seeds = .ok env.registry) : Shipped env seeds := by
  obtain ⟨r, e, _, _, h1, _, h2⟩ := Props.registry_roundtrip env.plat (shippedEffects seeds)
    (by rw [show (allSlots (shippedEffects seeds)).length = 35 from rfl]; decide)
  obtain ⟨r', e', h3, _⟩ := Props.shipped_registry env.plat seeds
  have : r = env.registry := by
    have h' : Registry.empty.addAll env.plat (shippedEffects seeds) = .ok env.registry := h
    rw [e] at h'; cases h'; rfl
  subst this
  have : r' = env.registry := by rw [e'] at h; cases h; rfl
  subst this
  refine ⟨BitVec.eq_of_toNat_eq ?_, h2, h3⟩
  rw [h1, shipped_length]; rfl

/-- What the buttons of effect mode change. -/
theorem select_ok {env : Env} {seeds : EffectSeeds} (hs : Shipped env seeds) {inp : Input}
    {s s' : State} (he : s.effectIndex.toNat < 19) (hp : s.paletteIndex.toNat < 22)
    (h : select env inp s = .ok s') :
    (s'.effectIndex.toNat, s'.paletteIndex.toNat) =
      selectionAfter 19 22 inp (s.effectIndex.toNat, s.paletteIndex.toNat) ∧
    s' = { s with effectIndex := s'.effectIndex, paletteIndex := s'.paletteIndex
                  node := s'.node } ∧
    ((BroadcastPressed inp ∧ s.node.setEffect env.plat inp.now s.setEffectPacket = .ok s'.node) ∨
      (¬ BroadcastPressed inp ∧ s'.node = s.node)) := by
  unfold select at h
  unfold selectionAfter BroadcastPressed
  rw [hs.unique, numPalettes_eq] at h
  simp only [show (19 : U8).toNat = 19 from rfl, show (22 : U8).toNat = 22 from rfl] at h
  cases h0 : inp.left.b0
  · cases h1 : inp.right.b0
    · cases h2 : inp.left.b1
      · cases h3 : inp.right.b1
        · cases h4 : inp.bottom.b0
          · simp only [h0, h1, h2, h3, h4] at h
            cases h
            simp
          · simp only [h0, h1, h2, h3, h4, bind, Except.bind] at h
            simp only [Bool.false_eq_true, if_false, if_true] at h
            cases hn : s.node.setEffect env.plat inp.now s.setEffectPacket with
            | error f => rw [hn] at h; cases h
            | ok node => rw [hn] at h; cases h; simp
        · simp only [h0, h1, h2, h3] at h
          cases h
          simp [next_toNat (n := 22) (by decide) _ hp]
      · simp only [h0, h1, h2] at h
        cases h
        simp
        simpa using prev_toNat (n := 22) (by decide) _ hp
    · simp only [h0, h1] at h
      cases h
      simp [next_toNat (n := 19) (by decide) _ he]
  · simp only [h0] at h
    cases h
    simp
    simpa using prev_toNat (n := 19) (by decide) _ he

/-- The parts of `RunEffectMode`. -/
theorem runEffectMode_ok {env : Env} {inp : Input} {s s' : State}
    (h : runEffectMode env inp s = .ok s') :
    ∃ s₁ e x y, select env inp s = .ok s₁ ∧
      env.registry.getEffect env.plat (env.registry.uniqueEffectNumberToIndex s₁.effectIndex) =
        .ok e ∧
      showRow env inp s₁.node e s'.setEffectPacket 0 (effectModeButtonLeds inp s₁.leds, s₁.rng) =
        .ok x ∧
      showRow env inp s₁.node .displayColorPalette s'.setEffectPacket 12 x = .ok y ∧
      s' = { s₁ with
        setEffectPacket := s₁.setEffectPacket.writeSetEffect
          (env.registry.uniqueEffectNumberToIndex s₁.effectIndex) kSetEffectDelay s₁.paletteIndex
        leds := (y.1.set kStatusLeft
          (if s₁.node.getCurrentState = .slave then ⟨255, 0, 0⟩ else ⟨0, 255, 0⟩)).set
            kStatusRight ⟨0, 0, if inp.broadcasting then 255 else 0⟩
        rng := y.2 } := by
  simp only [runEffectMode, bind, Except.bind, pure, Except.pure] at h
  cases h1 : select env inp s with
  | error f => rw [h1] at h; cases h
  | ok s₁ =>
    rw [h1] at h
    dsimp only at h
    cases h2 : env.registry.getEffect env.plat
        (env.registry.uniqueEffectNumberToIndex s₁.effectIndex) with
    | error f => rw [h2] at h; cases h
    | ok e =>
      rw [h2] at h
      dsimp only at h
      split at h
      · cases h
      · rename_i x hx
        split at h
        · cases h
        · rename_i y hy
          cases h
          exact ⟨s₁, e, x, y, rfl, h2, hx, hy, rfl⟩

/-! ## The direct modes -/

theorem pressedIndex_some {inp : Input} {side : Side} {r : Nat} (h : FirstPressed inp side r) :
    pressedIndex inp = some (side.number r) ∧ r < 3 := by
  obtain ⟨h1, h2, h3⟩ := h
  have hr : r < 3 := by
    match r with
    | 0 | 1 | 2 => decide
    | r + 3 => cases side <;> cases h1
  refine ⟨?_, hr⟩
  unfold pressedIndex
  cases side with
  | left =>
    match r with
    | 0 =>
      have h1 : inp.left.b0 = true := h1
      simp [h1, Side.number]
    | 1 =>
      have h1 : inp.left.b1 = true := h1
      have h2 : inp.left.b0 = false := h2 0 (by decide)
      simp [h1, h2, Side.number]
    | 2 =>
      have h1 : inp.left.b2 = true := h1
      have h4 : inp.left.b1 = false := h2 1 (by decide)
      have h2 : inp.left.b0 = false := h2 0 (by decide)
      simp [h1, h2, h4, Side.number]
    | r + 3 => omega
  | right =>
    have l0 : inp.left.b0 = false := h3 rfl 0
    have l1 : inp.left.b1 = false := h3 rfl 1
    have l2 : inp.left.b2 = false := h3 rfl 2
    simp only [l0, l1, l2]
    match r with
    | 0 =>
      have h1 : inp.right.b0 = true := h1
      simp [h1, Side.number]
    | 1 =>
      have h1 : inp.right.b1 = true := h1
      have h2 : inp.right.b0 = false := h2 0 (by decide)
      simp [h1, h2, Side.number]
    | 2 =>
      have h1 : inp.right.b2 = true := h1
      have h4 : inp.right.b1 = false := h2 1 (by decide)
      have h2 : inp.right.b0 = false := h2 0 (by decide)
      simp [h1, h2, h4, Side.number]
    | r + 3 => omega

theorem pressedIndex_none {inp : Input} (h : NonePressed inp) : pressedIndex inp = none := by
  have l0 : inp.left.b0 = false := h .left 0
  have l1 : inp.left.b1 = false := h .left 1
  have l2 : inp.left.b2 = false := h .left 2
  have r0 : inp.right.b0 = false := h .right 0
  have r1 : inp.right.b1 = false := h .right 1
  have r2 : inp.right.b2 = false := h .right 2
  simp [pressedIndex, l0, l1, l2, r0, r1, r2]

theorem pressed_cases (inp : Input) : NonePressed inp ∨ ∃ side r, FirstPressed inp side r := by
  cases l0 : inp.left.b0
  · cases l1 : inp.left.b1
    · cases l2 : inp.left.b2
      · have hl : ∀ r', Side.left.pressed inp r' = false := by
          intro r'
          match r' with
          | 0 | 1 | 2 => assumption
          | r + 3 => rfl
        cases r0 : inp.right.b0
        · cases r1 : inp.right.b1
          · cases r2 : inp.right.b2
            · left
              intro side r
              cases side
              · exact hl r
              · match r with
                | 0 | 1 | 2 => assumption
                | r + 3 => rfl
            · refine .inr ⟨.right, 2, r2, ?_, fun _ => hl⟩
              intro r' hr'
              match r' with
              | 0 | 1 => assumption
          · refine .inr ⟨.right, 1, r1, ?_, fun _ => hl⟩
            intro r' hr'
            match r' with
            | 0 => assumption
        · exact .inr ⟨.right, 0, r0, nofun, fun _ => hl⟩
      · refine .inr ⟨.left, 2, l2, ?_, nofun⟩
        intro r' hr'
        match r' with
        | 0 | 1 => assumption
    · refine .inr ⟨.left, 1, l1, ?_, nofun⟩
      intro r' hr'
      match r' with
      | 0 => assumption
  · exact .inr ⟨.left, 0, l0, nofun, nofun⟩

theorem vecGet_eq_some {l : List α} {i : Nat} {x : α} (h : l[i]? = some x) : vecGet l i = .ok x := by
  rw [vecGet, h]

theorem colors_get {k : Nat} (h : k < 6) :
    colors[k]? = some ⟨BitVec.ofNat 8 (256 * k / 6), 255, 255⟩ := by
  match k with
  | 0 | 1 | 2 | 3 | 4 | 5 => rfl
  | k + 6 => omega

theorem palettes_get {k : Nat} (h : k < 6) : palettes[k]? = some (BitVec.ofNat 8 (8 + k)) := by
  match k with
  | 0 | 1 | 2 | 3 | 4 | 5 => rfl
  | k + 6 => omega

theorem number_lt {side : Side} {r : Nat} (h : r < 3) : side.number r < 6 := by
  cases side <;> simp only [Side.number] <;> omega

/-- The parts of `RunColorMode`. -/
theorem runColorMode_ok {env : Env} {inp : Input} {s s' : State}
    (h : runColorMode env inp s = .ok s') :
    ∃ x, showColors env (s.leds, ()) = .ok x ∧
      s'.leds = setBottomButtonLeds (directRightLeds inp inp.left.b1 inp.left.b2
        (directLeftLeds inp x.1)) 0 0 0 ∧
      s' = { s with leds := s'.leds, controlPacket := s'.controlPacket, node := s'.node } ∧
      (NonePressed inp → s'.node = s.node) ∧
      ∀ side r, FirstPressed inp side r →
        s.node.setEffect env.plat inp.now (s.controlPacket.writeControl kSetEffectDelay
          (env.F.hsv2rgb ⟨BitVec.ofNat 8 (256 * side.number r / 6), 255, 255⟩)) = .ok s'.node := by
  simp only [runColorMode, bind, Except.bind, pure, Except.pure] at h
  cases h1 : showColors env (s.leds, ()) with
  | error f => rw [h1] at h; cases h
  | ok x =>
    rw [h1] at h
    dsimp only at h
    refine ⟨x, rfl, ?_⟩
    rcases pressed_cases inp with hn | ⟨side, r, hf⟩
    · rw [pressedIndex_none hn] at h
      cases h
      refine ⟨rfl, rfl, fun _ => rfl, fun side r hf => ?_⟩
      rw [FirstPressed, hn] at hf; cases hf.1
    · obtain ⟨hi, hr⟩ := pressedIndex_some hf
      rw [hi] at h
      dsimp only at h
      rw [vecGet_eq_some (colors_get (number_lt hr))] at h
      dsimp only at h
      split at h
      · cases h
      · rename_i node hnode
        cases h
        refine ⟨rfl, rfl, fun hn => ?_, fun side' r' hf' => ?_⟩
        · rw [FirstPressed, hn] at hf; cases hf.1
        · have : some (side.number r) = some (side'.number r') := by
            rw [← hi, (pressedIndex_some hf').1]
          rw [← Option.some.inj this]
          exact hnode

/-- The parts of `RunPaletteMode`. -/
theorem runPaletteMode_ok {env : Env} {inp : Input} {s s' : State}
    (h : runPaletteMode env inp s = .ok s') :
    ∃ x, showPalettes env inp s.node (s.leds, s.rng, s.setEffectPacket) = .ok x ∧
      s'.leds = setBottomButtonLeds (directRightLeds inp inp.right.b1 inp.right.b2
        (directLeftLeds inp x.1)) 0 0 0 ∧
      s' = { s with leds := s'.leds, setEffectPacket := s'.setEffectPacket, node := s'.node
                    rng := x.2.1 } ∧
      (NonePressed inp → s'.node = s.node ∧ s'.setEffectPacket = x.2.2) ∧
      ∀ side r, FirstPressed inp side r →
        s'.setEffectPacket = x.2.2.writeSetEffect s.node.getEffectIndex kSetEffectDelay
          (BitVec.ofNat 8 (8 + side.number r)) ∧
        s.node.setEffect env.plat inp.now s'.setEffectPacket = .ok s'.node := by
  simp only [runPaletteMode, bind, Except.bind, pure, Except.pure] at h
  cases h1 : showPalettes env inp s.node (s.leds, s.rng, s.setEffectPacket) with
  | error f => rw [h1] at h; cases h
  | ok x =>
    rw [h1] at h
    dsimp only at h
    refine ⟨x, rfl, ?_⟩
    rcases pressed_cases inp with hn | ⟨side, r, hf⟩
    · rw [pressedIndex_none hn] at h
      cases h
      refine ⟨rfl, rfl, fun _ => ⟨rfl, rfl⟩, fun side r hf => ?_⟩
      rw [FirstPressed, hn] at hf; cases hf.1
    · obtain ⟨hi, hr⟩ := pressedIndex_some hf
      rw [hi] at h
      dsimp only at h
      rw [vecGet_eq_some (palettes_get (number_lt hr))] at h
      dsimp only at h
      split at h
      · cases h
      · rename_i node hnode
        cases h
        refine ⟨rfl, rfl, fun hn => ?_, fun side' r' hf' => ?_⟩
        · rw [FirstPressed, hn] at hf; cases hf.1
        · have : some (side.number r) = some (side'.number r') := by
            rw [← hi, (pressedIndex_some hf').1]
          rw [← Option.some.inj this]
          exact ⟨rfl, hnode⟩

/-! ## Lamps -/

theorem leftLeds_get (leds : Leds) (x y z : U8) (j : Nat) :
    (setLeftButtonLeds leds x y z)[j]? = if j = 41 then some ⟨y, x, z⟩ else leds[j]? := by
  simp only [setLeftButtonLeds, setLeftButtonLed, Vector.getElem_set_self]
  split
  · rename_i h; subst h; simp
  · rename_i h; simp [Ne.symm h]

theorem rightLeds_get (leds : Leds) (x y z : U8) (j : Nat) :
    (setRightButtonLeds leds x y z)[j]? = if j = 39 then some ⟨y, z, x⟩ else leds[j]? := by
  simp only [setRightButtonLeds, setRightButtonLed, Vector.getElem_set_self]
  split
  · rename_i h; subst h; simp
  · rename_i h; simp [Ne.symm h]

theorem bottomLeds_get (leds : Leds) (x y z : U8) (j : Nat) :
    (setBottomButtonLeds leds x y z)[j]? = if j = 40 then some ⟨x, y, z⟩ else leds[j]? := by
  simp only [setBottomButtonLeds, setBottomButtonLed, Vector.getElem_set_self]
  split
  · rename_i h; subst h; simp
  · rename_i h; simp [Ne.symm h]

end Firefly.Controller
