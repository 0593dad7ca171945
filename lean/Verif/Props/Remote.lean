import Verif.Spec.Remote
import Verif.Props.Show
import Verif.Props.ControllerPanel
import Verif.Props.Dmx
import Verif.Props.Patterns

/-! # From the remote controls to the LEDs (C119–C121) -/

namespace Firefly.Props
open Spec

/-- A device that hears an instruction in the first radio tick of `Tick`, and no other one in the
second, ends up with that instruction. -/
theorem tick_follows {s s' : Node} (wf : s.WF) {l₁ l₂ : Board.Listen}
    {p : Packet} {fs} (hp : l₁.packet = .ok (some p)) (hh : Hears s (some p) p)
    (hi : IsInstruction p) (h2 : ∀ p, l₂.packet = .ok (some p) → ¬ IsInstruction p)
    (hc : l₁.now.toNat + 255000 < 2 ^ 32) (hs : l₂.now.toNat ≤ l₁.now.toNat + 1000)
    (ht : Board.tick l₁ l₂ s = .ok (s', fs)) :
    SameContent s'.getSetEffect p := by
  obtain ⟨s₁, f₁, e₁, hcase⟩ := Board.tick_ok ht
  obtain ⟨rx, hrx, hst, _⟩ := Board.radioTick_ok.1 e₁
  rw [hp] at hrx
  cases hrx
  have hd := hh.delivered wf
  have heard : Entry.heard ⟨s, .radioTick l₁.now (some p), s₁⟩ = some p := by
    rw [heard_tick wf, hd]
  have key : s₁.setEffectPacket = p ∧ (s₁.state = .slave ∨ ∃ d, s₁.timers.changeEffect =
      deadline l₁.now d) := by
    cases in_step wf hst with
    | keep hu => exact absurd hi (hu.2 p heard)
    | takeOver hu => exact absurd hi (hu.2 p heard)
    | locally q hop => cases hop
    | slaveHeard q hq _ _ hs' hc =>
      rw [heard] at hq; cases hq
      exact ⟨hc, .inl hs'⟩
    | masterHeard q hq _ _ _ hc _ hce =>
      rw [heard] at hq; cases hq
      exact ⟨hc, .inr ⟨_, hce⟩⟩
    | change q hf => exact absurd (hf.silent) (by rw [heard]; nofun)
    | repeats q hf => exact absurd (hf.silent) (by rw [heard]; nofun)
  rcases hcase with ⟨_, rfl, _⟩ | ⟨_, s₂, f₂, e₂, rfl, _⟩
  · rw [← key.1]; exact ⟨rfl, rfl, rfl⟩
  · obtain ⟨rx, hrx, hst₂, _⟩ := Board.radioTick_ok.1 e₂
    have wf₁ := Node.step_wf wf hst
    have no : ∀ q, Entry.heard ⟨s₁, .radioTick l₂.now rx, s₂⟩ = some q → ¬ IsInstruction q := by
      intro q hq
      have := heard_rx wf₁ hq
      subst this
      exact h2 q hrx
    show SameContent s₂.setEffectPacket p
    rw [← key.1]
    cases in_step wf₁ hst₂ with
    | keep _ _ hc => rw [hc]; exact ⟨rfl, rfl, rfl⟩
    | takeOver _ _ _ _ hc => rw [hc]; exact ⟨rfl, rfl, rfl⟩
    | locally q hop => cases hop
    | slaveHeard q hq hi => exact absurd hi (no q hq)
    | masterHeard q hq hi => exact absurd hi (no q hq)
    | change q hf hs' _ h0 h1 =>
      rcases key.2 with h | ⟨d, h⟩
      · rw [h] at hs'; cases hs'
      · rw [h] at h0 h1
        by_cases hd0 : d = 0
        · rw [hd0] at h0; exact absurd rfl h0
        · have h3 := (deadline_toNat hc hd0).2
          have h4 : d.toNat ≠ 0 := fun h => hd0 (BitVec.eq_of_toNat_eq h)
          rw [BitVec.lt_def, h3] at h1
          exact absurd h1 (by show ¬ _ < l₂.now.toNat; omega)
    | repeats q hf => exact hf.kept

theorem Board.Listen.packet_some {l : Board.Listen} {f rx} (hf : l.frame = some f)
    (h4 : 4 ≤ f.length) (h : l.packet = .ok rx) : ∃ p, rx = some p := by
  unfold Board.Listen.packet at h
  rw [hf] at h
  match f, h4 with
  | b0 :: b1 :: b2 :: b3 :: rest, _ =>
    simp only [Hw.readPacket] at h
    split at h
    · cases h
    · split at h
      · cases h
      · cases h; exact ⟨_, rfl⟩

/-- After receiving the frame of an instruction a board follows that instruction. -/
theorem receives_follows {env : Board.Env} {t₀ rand h s}
    (r : Board.Run env (Board.init env t₀ rand) h s) {inp : Board.Input} (ha : BoardAwake env s inp)
    {s'} (hl : Board.loop env inp s = .ok s') {q f} (hs : Hw.sendPacket q = .ok f)
    (hq : Complete q) (hrec : Receives s inp f) : Carries s'.node.getSetEffect q := by
  obtain ⟨h', r', _⟩ := board_is_a_node r
  obtain ⟨fs, leds, htick, _⟩ := board_loop_awake ha hl
  obtain ⟨s₁, f₁, e₁, _⟩ := Board.tick_ok htick
  obtain ⟨rx, hrx, _⟩ := Board.radioTick_ok.1 e₁
  have h58 : q.len.toNat ≤ 58 := by
    apply Nat.le_of_not_lt
    intro h
    rw [Hw.sendPacket, if_pos (.inl h)] at hs
    cases hs
  have hf4 : 4 ≤ f.length := by
    rw [sendPacket_ok h58] at hs
    cases hs
    rcases hq with h | h <;> simp <;> omega
  obtain ⟨p, rfl⟩ := Board.Listen.packet_some hrec.frame hf4 hrx
  obtain ⟨f', hf', _, hd⟩ := Board.Listen.packet_decodes hrx
  rw [hrec.frame] at hf'
  cases hf'
  obtain ⟨_, _, hcar⟩ := decodes_sent hs hd
  have hi : IsInstruction p := by
    unfold IsInstruction
    rw [hcar.1]
    rcases hq with h | h
    · exact .inl h.1
    · exact .inr h.1
  obtain ⟨h1, _, h3⟩ := tick_follows r'.wf hrx (hrec.new p hrx) hi hrec.last hrec.clock hrec.soon htick
  exact ⟨h1.trans hcar.1, fun k hk hlt => by rw [h3]; exact hcar.2 k hk hlt⟩

/-- A board that receives a colour instruction shows the colour on all its LEDs. -/
theorem receives_colour {env : Board.Env} {t₀ rand h s}
    (r : Board.Run env (Board.init env t₀ rand) h s) (h255 : totalLeds env.device ≤ 255)
    {inp : Board.Input} (ha : BoardAwake env s inp)
    {s'} (hl : Board.loop env inp s = .ok s') {q f} (hs : Hw.sendPacket q = .ok f)
    (ht : q.type = .setControl) (hq : 4 ≤ q.len.toNat) (hrec : Receives s inp f)
    (k : Nat) (hk : k < (ledsInOrder env.device).length) :
    s'.leds[k + 1]? =
      some (asShown (ledsInOrder env.device)[k].1 ⟨q.data[1], q.data[2], q.data[3]⟩) := by
  have hc := receives_follows r ha hl hs (.inr ⟨ht, hq⟩) hrec
  obtain ⟨c, h1, h2⟩ := board_shows_instruction r ha h255 hl k hk
  have h3 := control_shows_colour (hc.1.trans ht) h2
  dsimp only at h3
  rw [hc.2 1 (by decide) (by omega), hc.2 2 (by decide) (by omega),
    hc.2 3 (by decide) (by omega)] at h3
  rw [h1, h3]; rfl

theorem getColour_palette {F : FastLED} {e : Effect} {led : U8} {t : U32} {strip : Strip}
    {p q : Packet} {rng : U16} (h : p.data[2] = q.data[2]) (he : e ≠ .control) :
    e.getColour F .arduino led t strip p rng = e.getColour F .arduino led t strip q rng := by
  have hp : paletteOf .arduino p = paletteOf .arduino q := by
    simp only [paletteOf, Packet.readPaletteIndexFromSetEffect, hostAssert, h]
  cases e <;> first
    | exact absurd rfl he
    | simp only [Effect.getColour, Effects.colorCycle, Effects.contrastBumps,
        Effects.displayColorPalette, Effects.firefly, Effects.lightning,
        Effects.rainbowBumps, Effects.rainbow, Effects.rorschach, Effects.simpleBlink,
        Effects.spark, Effects.swingingLights, hp]

/-- A board that receives an effect instruction shows the effect with the palette. -/
theorem receives_effect {env : Board.Env} {seeds : EffectSeeds}
    (hreg : shippedRegistry .arduino seeds = .ok env.registry) {t₀ rand h s}
    (r : Board.Run env (Board.init env t₀ rand) h s) (h255 : totalLeds env.device ≤ 255)
    {inp : Board.Input} (ha : BoardAwake env s inp)
    {s'} (hl : Board.loop env inp s = .ok s') {q f} (hs : Hw.sendPacket q = .ok f)
    (ht : q.type = .setEffect) (hq : 3 ≤ q.len.toNat) (hrec : Receives s inp f) {e : Effect}
    (he : env.registry.getEffect .arduino q.data[0] = .ok e)
    (k : Nat) (hk : k < (ledsInOrder env.device).length) :
    ∃ c, s'.leds[k + 1]? = some c ∧ ShowsEffect env.F e q.data[2] (ledsInOrder env.device)[k].1
      (ledsInOrder env.device)[k].2 (s'.node.getNetworkMillis (inp.clock k)) c := by
  have hc := receives_follows r ha hl hs (.inl ⟨ht, hq⟩) hrec
  obtain ⟨c, h1, h2⟩ := board_shows_instruction r ha h255 hl k hk
  refine ⟨c, h1, ?_⟩
  have hne := shipped_no_control hreg he
  unfold Shows at h2
  unfold ShowsEffect
  split at h2
  · rename_i hoff
    rw [if_pos hoff]; exact h2
  · rename_i hoff
    rw [if_neg hoff]
    obtain ⟨e', rgb, hce, hrgb, hcol⟩ := h2
    rw [CurrentEffect, if_neg (by rw [hc.1, ht]; decide)] at hce
    have hce := hce.2
    dsimp only at hce
    rw [hc.2 0 (by decide) (by omega), he] at hce
    cases hce
    refine ⟨rgb, by rw [asShown, if_neg hoff]; exact hcol, ?_⟩
    intro p _ hp rng
    obtain ⟨rng', h⟩ := hrgb rng
    refine ⟨rng', ?_⟩
    rw [← h, Effect.getRGB, Effect.getRGB, getColour_palette ?_ hne]
    rw [hp]; exact (hc.2 2 (by decide) (by omega)).symm

/-- For the concrete cases: a node that has run a while receives the frame `f`. -/
theorem _root_.Firefly.Board.Demo.receives_after {f : List U8} {p : Packet}
    {earlier : List Board.Input} (chk : Board.State → Bool)
    (hp : (Board.Demo.listen 1040 (some f)).packet = .ok (some p))
    (e : (Board.Demo.runList (Board.Demo.env .node) (Board.Demo.start .node)
      (Board.Demo.input 1040 0 (some f) none :: earlier)).any
      (fun x => match x.1 with
        | (s, _, _) :: h => decide (h ≠ [] ∧ s.node.delivered (some p) = some p) && chk x.2
        | _ => false) = true) :
    ∃ h s s', Board.Run (Board.Demo.env .node) (Board.Demo.start .node) h s ∧ h ≠ [] ∧
      BoardAwake (Board.Demo.env .node) s (Board.Demo.input 1040 0 (some f) none) ∧
      Board.loop (Board.Demo.env .node) (Board.Demo.input 1040 0 (some f) none) s = .ok s' ∧
      Receives s (Board.Demo.input 1040 0 (some f) none) f ∧ chk s' = true ∧
      totalLeds (Board.Demo.env .node).device ≤ 255 := by
  obtain ⟨h, s, r, hl, c⟩ := Board.Demo.run_of_check (fun h s' => match h with
    | (s, _, _) :: h => decide (h ≠ [] ∧ s.node.delivered (some p) = some p) && chk s'
    | _ => false) e
  split at c
  · rename_i s₁ inp s₂ h'
    rw [Bool.and_eq_true] at c
    obtain ⟨c1, c2⟩ := of_decide_eq_true c.1
    have hinp : inp = Board.Demo.input 1040 0 (some f) none := by
      rw [List.map_cons] at hl; exact (List.cons.inj hl).1
    subst hinp
    cases r with
    | cons _ r hloop =>
      obtain ⟨_, r', _⟩ := board_is_a_node r
      refine ⟨_, s₁, s, r, c1, (fun h => by cases h), hloop,
        ⟨rfl, fun p' hp' => ?_, fun p' hp' => ?_,
          (by decide : (1040 : U32).toNat + 255000 < 2 ^ 32),
          (by decide : (1040 : U32).toNat ≤ (1040 : U32).toNat + 1000)⟩, c.2, by decide⟩
      · have : some p' = some p := Except.ok.inj (hp'.symm.trans hp)
        cases this
        exact hears_of_delivered r'.wf c2
      · cases hp'
  · cases c

/-- The same for a node that has run once. -/
theorem _root_.Firefly.Board.Demo.receives {f : List U8} {p : Packet} (chk : Board.State → Bool)
    (hp : (Board.Demo.listen 1040 (some f)).packet = .ok (some p))
    (e : (Board.Demo.runList (Board.Demo.env .node) (Board.Demo.start .node)
      [Board.Demo.input 1040 0 (some f) none, Board.Demo.input 1020 0 none none]).any
      (fun x => match x.1 with
        | (s, _, _) :: h => decide (h ≠ [] ∧ s.node.delivered (some p) = some p) && chk x.2
        | _ => false) = true) :
    ∃ h s s', Board.Run (Board.Demo.env .node) (Board.Demo.start .node) h s ∧ h ≠ [] ∧
      BoardAwake (Board.Demo.env .node) s (Board.Demo.input 1040 0 (some f) none) ∧
      Board.loop (Board.Demo.env .node) (Board.Demo.input 1040 0 (some f) none) s = .ok s' ∧
      Receives s (Board.Demo.input 1040 0 (some f) none) f ∧ chk s' = true ∧
      totalLeds (Board.Demo.env .node).device ≤ 255 :=
  Board.Demo.receives_after chk hp e

/-! ## C119: a colour chosen on the controller -/

open Controller in
/-- C119: a press in colour mode transmits a frame, and every board that receives it shows on all
its LEDs the colour displayed next to the button (as far as the strips are not marked off or dim),
whatever board and controller did before. -/
theorem controller_colour_shown {cenv : Controller.Env} {t₀ rand rng gauge ch cs}
    (run : Controller.Run cenv (Controller.init cenv t₀ rand rng gauge) ch cs)
    {cinp : Controller.Input} {cs' : Controller.State} (ha : Awake cs cinp) (hm : ColourMode cinp)
    (hl : Controller.loop cenv cinp cs = .ok cs') {side : Side} {row : Nat}
    (hf : FirstPressed cinp side row) :
    ∃ q f, Transmits cenv cs cinp cs' q ∧ Hw.sendPacket q = .ok f ∧
      ∀ {env : Board.Env} {t₀ rand h s} (_ : Board.Run env (Board.init env t₀ rand) h s)
        {inp s'}, totalLeds env.device ≤ 255 → BoardAwake env s inp →
        Board.loop env inp s = .ok s' → Receives s inp f →
        ∀ k (hk : k < (ledsInOrder env.device).length) column colour, side.Beside column →
          cs'.leds[panel row column]? = some colour →
          s'.leds[k + 1]? = some (asShown (ledsInOrder env.device)[k].1 colour) := by
  obtain ⟨q, h1, h2, h3, _, h4⟩ := (colour_button run ha hm hl).2 side row hf
  refine ⟨q, _, h1, sendPacket_ok (by rw [h3]; decide), ?_⟩
  intro env t₀ rand h s r inp s' h255 hba hbl hrec k hk column colour hcol hc
  rw [h4 column hcol] at hc
  cases hc
  exact receives_colour r h255 hba hbl (sendPacket_ok (by rw [h3]; decide)) h2
    (by rw [h3]; decide) hrec k hk

/-- A concrete case on the side of the board (for the controller see the example of
`colour_button`, for the gateway those of Props/Dmx): it receives the colour red 85, green 255,
blue 255 with number 9, and its first LED shows it. -/
example : ∃ h s s', Board.Run (Board.Demo.env .node) (Board.Demo.start .node) h s ∧ h ≠ [] ∧
    BoardAwake (Board.Demo.env .node) s
      (Board.Demo.input 1040 0 (some [0, 9, 3, 60, 85, 255, 255]) none) ∧
    Board.loop (Board.Demo.env .node)
      (Board.Demo.input 1040 0 (some [0, 9, 3, 60, 85, 255, 255]) none) s = .ok s' ∧
    Receives s (Board.Demo.input 1040 0 (some [0, 9, 3, 60, 85, 255, 255]) none)
      [0, 9, 3, 60, 85, 255, 255] ∧
    decide (s'.leds[1]? = some ⟨85, 255, 255⟩) = true ∧
    totalLeds (Board.Demo.env .node).device ≤ 255 :=
  Board.Demo.receives (fun s' => decide (s'.leds[1]? = some ⟨85, 255, 255⟩)) rfl (by decide +kernel)

/-! ## C120: an effect chosen on the controller -/

open Controller in
/-- C120: when the broadcast button is pressed in effect mode (and the controller has not been in
palette mode since it was last in effect mode), it transmits a frame, and every board with the
shipped effects that receives it shows the selected effect with the selected palette at its
network time. -/
theorem controller_effect_shown {cenv : Controller.Env} {cseeds : EffectSeeds}
    (hreg : shippedRegistry cenv.plat cseeds = .ok cenv.registry)
    {t₀ rand rng gauge ch cs}
    (run : Controller.Run cenv (Controller.init cenv t₀ rand rng gauge) ch cs)
    {h₁ h₂ e} (hh : ch = h₁ ++ e :: h₂) (hea : Awake e.1 e.2.1) (hem : EffectMode e.2.1)
    (hsince : ∀ e' ∈ h₁, ¬ (Awake e'.1 e'.2.1 ∧ PaletteMode e'.2.1))
    {cinp : Controller.Input} {cs' : Controller.State} (ha : Awake cs cinp) (hm : EffectMode cinp)
    (hl : Controller.loop cenv cinp cs = .ok cs') (hb : BroadcastPressed cinp) :
    ∃ q f, Transmits cenv cs cinp cs' q ∧ Hw.sendPacket q = .ok f ∧
      ∀ {env : Board.Env} {seeds : EffectSeeds},
        shippedRegistry .arduino seeds = .ok env.registry →
        ∀ {t₀ rand h s} (_ : Board.Run env (Board.init env t₀ rand) h s)
        {inp s'}, totalLeds env.device ≤ 255 → BoardAwake env s inp →
        Board.loop env inp s = .ok s' → Receives s inp f →
        ∃ hk : cs.effectIndex.toNat < (distinctEffects (shippedEffects seeds)).length,
        ∀ k (hk : k < (ledsInOrder env.device).length), ∃ c, s'.leds[k + 1]? = some c ∧
          ShowsEffect env.F (distinctEffects (shippedEffects seeds))[cs.effectIndex.toNat]
            cs.paletteIndex (ledsInOrder env.device)[k].1 (ledsInOrder env.device)[k].2
            (s'.node.getNetworkMillis (inp.clock k)) c := by
  obtain ⟨_, q, h1, h2, h3, _, h4, h5⟩ :=
    broadcast_sends_selection hreg run hh hea hem hsince hl ha hm hb
  refine ⟨q, _, h1, sendPacket_ok (by rw [h3]; decide), ?_⟩
  intro env seeds hreg' t₀ rand h s r inp s' h255 hba hbl hrec
  obtain ⟨hk, he⟩ := h5 .arduino seeds env.registry hreg'
  refine ⟨hk, fun k hk' => ?_⟩
  have := receives_effect hreg' r h255 hba hbl (sendPacket_ok (by rw [h3]; decide)) h2
    (by rw [h3]; decide) hrec he k hk'
  rw [h4] at this
  exact this

open Controller in
/-- C120: a press in palette mode transmits a frame, and every board with the shipped effects that
receives it shows the button's palette (8 to 13) with the effect the board has under the number of
the effect the controller itself follows. -/
theorem controller_palette_shown {cenv : Controller.Env} {t₀ rand rng gauge ch cs}
    (run : Controller.Run cenv (Controller.init cenv t₀ rand rng gauge) ch cs)
    {cinp : Controller.Input} {cs' : Controller.State} (ha : Awake cs cinp) (hm : PaletteMode cinp)
    (hl : Controller.loop cenv cinp cs = .ok cs') {side : Side} {row : Nat}
    (hf : FirstPressed cinp side row) :
    ∃ node q f, cs.node.tick cenv.plat cinp.now₁ cinp.rx₁ cinp.now₂ cinp.rx₂ = .ok node ∧
      Transmits cenv cs cinp cs' q ∧ Hw.sendPacket q = .ok f ∧
      ∀ {env : Board.Env} {seeds : EffectSeeds},
        shippedRegistry .arduino seeds = .ok env.registry →
        ∀ {t₀ rand h s} (_ : Board.Run env (Board.init env t₀ rand) h s)
        {inp s'}, totalLeds env.device ≤ 255 → BoardAwake env s inp →
        Board.loop env inp s = .ok s' → Receives s inp f →
        ∀ e, env.registry.getEffect .arduino node.getEffectIndex = .ok e →
        ∀ k (hk : k < (ledsInOrder env.device).length), ∃ c, s'.leds[k + 1]? = some c ∧
          ShowsEffect env.F e (BitVec.ofNat 8 (8 + side.number row))
            (ledsInOrder env.device)[k].1 (ledsInOrder env.device)[k].2
            (s'.node.getNetworkMillis (inp.clock k)) c := by
  obtain ⟨node, q, h0, h1, h2, h3, h4, _, h5⟩ := (palette_button run ha hm hl).2 side row hf
  refine ⟨node, q, _, h0, h1, sendPacket_ok (by rw [h3]; decide), ?_⟩
  intro env seeds hreg' t₀ rand h s r inp s' h255 hba hbl hrec e he k hk
  rw [← h4] at he
  have := receives_effect hreg' r h255 hba hbl (sendPacket_ok (by rw [h3]; decide)) h2
    (by rw [h3]; decide) hrec he k hk
  have h6 : q.data[2] = BitVec.ofNat 8 (8 + side.number row) := by
    rw [← h5, BitVec.ofNat_toNat, BitVec.setWidth_eq]
  rw [h6] at this
  exact this

/-- A concrete case on the side of the board (for the controller see the example of
`broadcast_sends_selection` and of `palette_button`): it receives the selection made there, effect in slot 2 with palette
21, with number 9. -/
example : ∃ h s s', Board.Run (Board.Demo.env .node) (Board.Demo.start .node) h s ∧ h ≠ [] ∧
    BoardAwake (Board.Demo.env .node) s (Board.Demo.input 1040 0 (some [0, 9, 2, 2, 60, 21]) none) ∧
    Board.loop (Board.Demo.env .node)
      (Board.Demo.input 1040 0 (some [0, 9, 2, 2, 60, 21]) none) s = .ok s' ∧
    Receives s (Board.Demo.input 1040 0 (some [0, 9, 2, 2, 60, 21]) none) [0, 9, 2, 2, 60, 21] ∧
    decide (s'.leds[1]? ≠ some ⟨0, 0, 0⟩) = true ∧
    totalLeds (Board.Demo.env .node).device ≤ 255 :=
  Board.Demo.receives (fun s' => decide (s'.leds[1]? ≠ some ⟨0, 0, 0⟩)) rfl (by decide +kernel)

/-! ## C121: a colour from the DMX bus -/

open Dmx in
/-- C121: whenever the DMX gateway transmits, every board that receives the frame shows on all its
LEDs the colour just read from the DMX bus. -/
theorem dmx_colour_shown (junk) (dinp : Nat → Dmx.Input) (n : Nat) {q}
    (hq : sent junk dinp n = some q) :
    ∃ f, Hw.sendPacket q = .ok f ∧
      ∀ {env : Board.Env} {t₀ rand h s} (_ : Board.Run env (Board.init env t₀ rand) h s)
        {inp s'}, totalLeds env.device ≤ 255 → BoardAwake env s inp →
        Board.loop env inp s = .ok s' → Receives s inp f →
        ∀ k (hk : k < (ledsInOrder env.device).length),
          s'.leds[k + 1]? = some (asShown (ledsInOrder env.device)[k].1 (dinp n).colour) := by
  obtain ⟨ht, hlen, _, h1, h2, h3, _⟩ := dmx_packet junk dinp n hq
  refine ⟨_, sendPacket_ok (by rw [hlen]; decide), ?_⟩
  intro env t₀ rand h s r inp s' h255 hba hbl hrec k hk
  have := receives_colour r h255 hba hbl (sendPacket_ok (by rw [hlen]; decide)) ht
    (by rw [hlen]; decide) hrec k hk
  rw [h1, h2, h3] at this
  exact this

end Firefly.Props
