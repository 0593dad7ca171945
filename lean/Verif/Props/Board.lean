import Verif.Lemmas.Board
import Verif.Props.Battery
import Verif.Props.Boot

/-! # Properties of the LED boards (C93–C96) -/

namespace Firefly.Props
open Spec

/-! ## C93: the boards are network devices -/

theorem frames_append {a b : List Packet} {fs gs : List (List U8)}
    (ha : a.mapM Hw.sendPacket = .ok fs) (hb : b.mapM Hw.sendPacket = .ok gs) :
    (a ++ b).mapM Hw.sendPacket = .ok (fs ++ gs) := by
  rw [List.mapM_append, ha, hb]; rfl

/-- One call of `Tick` on the radio, as steps of the state machine. -/
theorem board_tick_exec {t₀ h s l₁ l₂ s' fs} {gs : List (List U8)}
    (r : Firefly.Run .arduino t₀ h s) (hg : s.sent.mapM Hw.sendPacket = .ok gs)
    (ht : Board.tick l₁ l₂ s = .ok (s', fs)) :
    ∃ h', Firefly.Run .arduino t₀ (h' ++ h) s' ∧ s'.sent.mapM Hw.sendPacket = .ok (gs ++ fs) ∧
      ∀ e ∈ h', (∀ now rx, e.op = .radioTick now rx →
        ∃ l ∈ [l₁, l₂], l.now = now ∧ l.packet = .ok rx) ∧ ∀ now p, e.op ≠ .setEffect now p := by
  have one : ∀ {h s} {l : Board.Listen} {s' fs} {gs : List (List U8)},
      Firefly.Run .arduino t₀ h s → s.sent.mapM Hw.sendPacket = .ok gs →
      Board.radioTick l s = .ok (s', fs) → ∃ rx, l.packet = .ok rx ∧
        Firefly.Run .arduino t₀ (⟨s, .radioTick l.now rx, s'⟩ :: h) s' ∧
        s'.sent.mapM Hw.sendPacket = .ok (gs ++ fs) := by
    intro h s l s' fs gs r hg h1
    obtain ⟨rx, hp, hst, hf⟩ := Board.radioTick_ok.1 h1
    obtain ⟨rand, j, j', x⟩ := r
    refine ⟨rx, hp, ⟨rand, j, j', .cons _ x hst⟩, ?_⟩
    rw [Node.step_sent (x.wf .init) hst]
    exact frames_append hg hf
  obtain ⟨s₁, f₁, h1, ⟨_, rfl, rfl⟩ | ⟨_, s₂, f₂, h2, rfl, rfl⟩⟩ := Board.tick_ok ht
  · obtain ⟨rx, hp, ⟨rand, j, j', x⟩, hg'⟩ := one r hg h1
    refine ⟨[_, _], ⟨rand, j, j', .cons (.endTick l₁.now) x rfl⟩, hg', ?_⟩
    intro e he
    rcases List.mem_cons.1 he with rfl | he
    · exact ⟨nofun, nofun⟩
    · rcases List.mem_singleton.1 he with rfl
      refine ⟨?_, nofun⟩
      rintro now rx' h'
      cases h'
      exact ⟨l₁, by simp, rfl, hp⟩
  · obtain ⟨rx, hp, r₁, hg₁⟩ := one r hg h1
    obtain ⟨rx₂, hp₂, ⟨rand, j, j', x⟩, hg₂⟩ := one r₁ hg₁ h2
    refine ⟨[_, _, _], ⟨rand, j, j', .cons (.endTick l₂.now) x rfl⟩, by
      rw [List.append_assoc] at hg₂; exact hg₂, ?_⟩
    intro e he
    rcases List.mem_cons.1 he with rfl | he
    · exact ⟨nofun, nofun⟩
    · rcases List.mem_cons.1 he with rfl | he
      · refine ⟨?_, nofun⟩
        rintro now rx' h'
        cases h'
        exact ⟨l₂, by simp, rfl, hp₂⟩
      · rcases List.mem_singleton.1 he with rfl
        refine ⟨?_, nofun⟩
        rintro now rx' h'
        cases h'
        exact ⟨l₁, by simp, rfl, hp⟩

/-- C93: the radio part of the LED boards is a network device in the sense of C01–C40.  Every run
of the program of the node or the fancy node, whatever its inputs, is (seen from the radio) a run
of the state machine from power-up; what the state machine received are exactly the packets read
from frames the radio driver offered, it was given no local instructions, and the frames handed to
the radio driver are, in order, the encodings of the packets the state machine sent. -/
theorem board_is_a_node {env : Board.Env} {t₀ rand h s}
    (r : Board.Run env (Board.init env t₀ rand) h s) :
    ∃ h', Firefly.Run .arduino t₀ h' s.node ∧
      s.node.sent.mapM Hw.sendPacket = .ok s.aired ∧
      ∀ e ∈ h', (∀ now rx, e.op = .radioTick now rx → ∃ x ∈ h,
          ∃ l ∈ [x.2.1.first, x.2.1.second], l.now = now ∧ l.packet = .ok rx) ∧
        ∀ now p, e.op ≠ .setEffect now p := by
  induction r with
  | nil =>
    refine ⟨_, ⟨rand, _, _, .cons (.setNumPalettes t₀ (BitVec.ofNat 8 Firefly.palettes.length))
      (.cons (.setNumEffects t₀ env.registry.getNumEffects) .nil rfl) rfl⟩, rfl, ?_⟩
    intro e he
    rcases List.mem_cons.1 he with rfl | he
    · exact ⟨nofun, nofun⟩
    · rcases List.mem_singleton.1 he with rfl
      exact ⟨nofun, nofun⟩
  | @cons h s s' inp _ hl ih =>
    obtain ⟨h', x, hg, hh⟩ := ih
    by_cases ha : BoardAwake env s inp
    · obtain ⟨fs, leds, ht, haired, _⟩ := board_loop_awake ha hl
      obtain ⟨h'', x', hg', hh'⟩ := board_tick_exec x hg ht
      refine ⟨_, x', by rw [haired]; exact hg', ?_⟩
      intro e he
      rcases List.mem_append.1 he with he | he
      · refine ⟨fun now rx ho => ⟨_, List.mem_cons_self, (hh' e he).1 now rx ho⟩, (hh' e he).2⟩
      · refine ⟨fun now rx ho => ?_, (hh e he).2⟩
        obtain ⟨x, hx, y⟩ := (hh e he).1 now rx ho
        exact ⟨x, List.mem_cons_of_mem _ hx, y⟩
    · obtain ⟨h1, h2, _⟩ := board_loop_asleep ha hl
      refine ⟨h', by rw [h1]; exact x, by rw [h1, h2]; exact hg, ?_⟩
      intro e he
      refine ⟨fun now rx ho => ?_, (hh e he).2⟩
      obtain ⟨x, hx, y⟩ := (hh e he).1 now rx ho
      exact ⟨x, List.mem_cons_of_mem _ hx, y⟩

/-- C93: what the state machine reads from a frame: its id, type and payload, and nothing else
(the rest of the payload is whatever was in memory, the length is 0); frames of up to three bytes
are nothing. -/
theorem board_reads_frames (l : Board.Listen) :
    (∀ p, l.packet = .ok (some p) → ∃ f, l.frame = some f ∧ f.length ≤ 61 ∧ Decodes f p) ∧
    (∀ f, l.frame = some f → 4 ≤ f.length → f.length ≤ 61 → ∃ p, l.packet = .ok (some p)) ∧
    (∀ f, l.frame = some f → f.length ≤ 3 → l.packet = .ok none) ∧
    (l.frame = none → l.packet = .ok none) := by
  refine ⟨fun p h => Board.Listen.packet_decodes h, ?_, ?_, Board.Listen.packet_none⟩
  · intro f hf h4 h61
    unfold Board.Listen.packet Hw.readPacket
    rw [hf]
    match f, h4, h61 with
    | b0 :: b1 :: b2 :: b3 :: rest, _, h61 =>
      simp only
      rw [if_neg (by simp only [Hw.kMaxFifoSizePacketSize]; omega),
        if_neg (by simp only [List.length_cons] at h61 ⊢; omega)]
      exact ⟨_, rfl⟩
  · intro f hf h3
    unfold Board.Listen.packet Hw.readPacket
    rw [hf]
    match f, h3 with
    | [], _ => rfl
    | [_], _ => rfl
    | [_, _], _ => rfl
    | [_, _, _], _ => rfl

/-! ## C94: harmless radio traffic never brings a board down -/

theorem init_good {env : Board.Env} {seeds : EffectSeeds} {t₀ rand}
    (hr : shippedRegistry .arduino seeds = .ok env.registry) :
    Good (Board.init env t₀ rand).node := by
  obtain ⟨r, e, hn, _⟩ := shipped_registry .arduino seeds
  rw [hr] at e
  cases e
  refine ⟨⟨?_, rfl, rfl⟩, .inl rfl, fun _ => ?_, ?_, ?_, ?_⟩
  · show (0 : U8).toNat < 5; decide
  · show (0 : U8).toNat < 22; decide
  · show (3 : U8).toNat ≤ 58; decide
  · show BitVec.ofNat 8 Firefly.palettes.length = 22; decide +kernel
  · show env.registry.getNumEffects ≠ 0
    rw [hn]; decide

theorem board_iteration {env : Board.Env} {seeds : EffectSeeds}
    (hr : shippedRegistry .arduino seeds = .ok env.registry)
    (h1 : 1 ≤ totalLeds env.device) (h255 : totalLeds env.device ≤ 255)
    (hctl : ∀ strip ∈ env.device.strips, strip.flagEnabled .controller → strip.count.toNat ≤ 32)
    {s : Board.State} (g : Good s.node)
    (hlen : s.leds.length = (FastLedManager.newLeds env.device).length)
    (inp : Board.Input) (hf : ∀ f, some f ∈ offered inp → Harmless f) :
    ∃ s', Board.loop env inp s = .ok s' ∧ Good s'.node ∧
      s'.leds.length = (FastLedManager.newLeds env.device).length := by
  obtain ⟨n, fs, ht, gn⟩ := g.tick (l₁ := inp.first) (l₂ := inp.second)
    (fun f h => hf f (by simp [offered, h])) (fun f h => hf f (by simp [offered, h]))
  have hren : ∀ l₀ : List CRGB, l₀.length = (FastLedManager.newLeds env.device).length →
      ∃ l₁, Board.render env inp n l₀ = .ok l₁ ∧ l₁.length = l₀.length := by
    intro l₀ hl₀
    refine shipped_frame_total env.F seeds hr n.getSetEffect _ env.device inp.rng l₀ hl₀ ?_ h255 hctl
    rcases gn.inst with h | h
    · exact .inr ⟨nofun, gn.pal h⟩
    · exact .inl h
  unfold Board.loop
  cases hp : env.program with
  | node =>
    obtain ⟨l₁, e, hl₁⟩ := hren s.leds hlen
    simp only [Board.loopNode, bind, Except.bind, pure, Except.pure, ht, e]
    exact ⟨_, rfl, gn, hl₁.trans hlen⟩
  | fancyNode =>
    have key : ∀ l₀ : List CRGB, l₀.length = (FastLedManager.newLeds env.device).length →
        ∃ s', (if (!(Battery.step .fancyNode s.low inp.battery).active) = true then
            Except.ok { s with low := (Battery.step .fancyNode s.low inp.battery).low, leds := l₀ }
          else (Board.tick inp.first inp.second s.node).bind fun a =>
            (Board.render env inp a.1
              (l₀.set 0 (Battery.onboardLed env.F env.atBoot inp.millis))).bind fun leds =>
              .ok { s with
                low := (Battery.step .fancyNode s.low inp.battery).low
                node := a.1, aired := s.aired ++ a.2, leds := leds }) = .ok s' ∧ Good s'.node ∧
          s'.leds.length = (FastLedManager.newLeds env.device).length := by
      intro l₀ hl₀
      split
      · exact ⟨_, rfl, g, hl₀⟩
      · obtain ⟨l₁, e, hl₁⟩ := hren (l₀.set 0 (Battery.onboardLed env.F env.atBoot inp.millis))
          (by simp [hl₀])
        rw [ht]
        simp only [Except.bind, e]
        exact ⟨_, rfl, gn, by simpa [hl₀] using hl₁⟩
    simp only [Board.loopFancyNode, bind, Except.bind, pure, Except.pure]
    by_cases hsd : (Battery.step .fancyNode s.low inp.battery).shutDown = true
    · rw [if_pos hsd]
      have hlow : Board.lowBatteryLeds s.leds = .ok
          (((FastLedManager.clear s.leds).set 0 ⟨4, 0, 0⟩).set 1 ⟨4, 0, 0⟩) := by
        unfold Board.lowBatteryLeds
        rw [if_pos (by
          rw [hlen]
          simp only [FastLedManager.newLeds, List.length_replicate, ledCount_toNat]
          omega)]
      rw [hlow]
      exact key _ (by simp [FastLedManager.clear, hlen])
    · rw [if_neg hsd]
      exact key _ hlen

/-- C94: a board (node or fancy node) with the shipped effects and a device of 1 to 255 LEDs (at
most 32 on a strip marked controller) never runs into undefined behaviour, for any clock, battery
readings, random numbers and memory contents and any number of iterations, as long as the radio
frames it is offered are harmless: no longer than 61 bytes, and naming an existing palette if they
are set-effect frames. -/
theorem board_never_faults {env : Board.Env} {seeds : EffectSeeds}
    (hr : shippedRegistry .arduino seeds = .ok env.registry)
    (h1 : 1 ≤ totalLeds env.device) (h255 : totalLeds env.device ≤ 255)
    (hctl : ∀ strip ∈ env.device.strips, strip.flagEnabled .controller → strip.count.toNat ≤ 32)
    {t₀ rand h s} (r : Board.Run env (Board.init env t₀ rand) h s)
    (hh : ∀ x ∈ h, ∀ f, some f ∈ offered x.2.1 → Harmless f)
    (inp : Board.Input) (hf : ∀ f, some f ∈ offered inp → Harmless f) :
    ∃ s', Board.loop env inp s = .ok s' := by
  have key : Good s.node ∧ s.leds.length = (FastLedManager.newLeds env.device).length := by
    clear hf
    induction r with
    | nil => exact ⟨init_good hr, rfl⟩
    | @cons h s s' inp _ hl ih =>
      obtain ⟨g, hlen⟩ := ih fun x hx => hh x (List.mem_cons_of_mem _ hx)
      obtain ⟨s'', e, g', hlen'⟩ := board_iteration hr h1 h255 hctl g hlen inp
        (hh _ List.mem_cons_self)
      rw [hl] at e
      cases e
      exact ⟨g', hlen'⟩
  obtain ⟨s', e, _⟩ := board_iteration hr h1 h255 hctl key.1 key.2 inp hf
  exact ⟨s', e⟩

/-- A node hears an instruction (effect 8, palette 15) and then a heartbeat, from other nodes; it
shows the effect, and relays of both go on the air as bare headers (C15). -/
theorem example_run : ∃ h s, Board.Run (Board.Demo.env .node) (Board.Demo.start .node) h s ∧
    h.map (·.2.1) = [Board.Demo.input 1100 900 none none,
      Board.Demo.input 1050 900 (some [0, 77, 0, 0, 1, 0, 0]) none,
      Board.Demo.input 1020 900 (some [0, 9, 2, 8, 0, 15]) none] ∧
    (s.aired == [[0, 9, 2], [0, 77, 0]] && s.node.getSetEffect.data[2] == 15 &&
      s.node.getNetworkMillis 1050 == 65536 && s.leds[1]? == some ⟨255, 255, 255⟩) = true :=
  Board.Demo.run_of_check (fun _ s => s.aired == [[0, 9, 2], [0, 77, 0]] &&
      s.node.getSetEffect.data[2] == 15 && s.node.getNetworkMillis 1050 == 65536 &&
      s.leds[1]? == some ⟨255, 255, 255⟩) (by decide +kernel)

example : ∀ f ∈ ([[0, 77, 0, 0, 1, 0, 0], [0, 9, 2, 8, 0, 15]] : List (List U8)), Harmless f := by
  intro f hf
  simp only [List.mem_cons, List.not_mem_nil, or_false] at hf
  rcases hf with rfl | rfl
  · exact ⟨by decide, nofun⟩
  · exact ⟨by decide, fun _ _ => ⟨15, rfl, by decide⟩⟩

example : 1 ≤ totalLeds (Board.Demo.env .fancyNode).device ∧
    totalLeds (Board.Demo.env .fancyNode).device ≤ 255 ∧
    ∀ strip ∈ (Board.Demo.env .fancyNode).device.strips,
      strip.flagEnabled .controller → strip.count.toNat ≤ 32 := by decide

/-- A slave that hears an instruction in the first radio tick of `Tick`, and nothing in the
second, ends up with that instruction. -/
theorem tick_adopts {s s' : Node} (wf : s.WF) (hs : s.state = .slave) {l₁ l₂ : Board.Listen}
    {p : Packet} {fs} (hp : l₁.packet = .ok (some p)) (hh : Hears s (some p) p)
    (hi : IsInstruction p) (h2 : l₂.frame = none) (ht : Board.tick l₁ l₂ s = .ok (s', fs)) :
    s'.getSetEffect = p := by
  obtain ⟨s₁, f₁, e₁, hcase⟩ := Board.tick_ok ht
  obtain ⟨rx, hrx, hst, _⟩ := Board.radioTick_ok.1 e₁
  rw [hp] at hrx
  cases hrx
  have hd := hh.delivered wf
  have heard : Entry.heard ⟨s, .radioTick l₁.now (some p), s₁⟩ = some p := by
    rw [heard_tick wf, hd]
  have key : s₁.setEffectPacket = p ∧ s₁.state = .slave := by
    cases in_step wf hst with
    | keep hu => exact absurd hi (hu.2 p heard)
    | takeOver hu => exact absurd hi (hu.2 p heard)
    | locally q hop => cases hop
    | slaveHeard q hq _ _ hs' hc =>
      rw [heard] at hq; cases hq
      exact ⟨hc, hs'⟩
    | masterHeard q _ _ hs' => rw [hs] at hs'; cases hs'
    | change q hf hs' => rw [hs] at hs'; cases hs'
    | repeats q hf hq hs' => rw [hs] at hs'; cases hs'
  rcases hcase with ⟨_, rfl, _⟩ | ⟨_, s₂, f₂, e₂, rfl, _⟩
  · exact key.1
  · obtain ⟨rx, hrx, hst₂, _⟩ := Board.radioTick_ok.1 e₂
    rw [Board.Listen.packet_none h2] at hrx
    cases hrx
    have wf₁ := Node.step_wf wf hst
    have heard₂ : Entry.heard ⟨s₁, .radioTick l₂.now none, s₂⟩ = none := rfl
    show s₂.setEffectPacket = p
    cases in_step wf₁ hst₂ with
    | keep _ _ hc => rw [hc]; exact key.1
    | takeOver _ _ _ _ hc => rw [hc]; exact key.1
    | locally q hop => cases hop
    | slaveHeard q hq => rw [heard₂] at hq; cases hq
    | masterHeard q hq => rw [heard₂] at hq; cases hq
    | change q hf hs' => rw [key.2] at hs'; cases hs'
    | repeats q hf hq hs' => rw [key.2] at hs'; cases hs'

/-- C94, refuted for other traffic: whatever happened before, one well-formed set-effect frame
naming an effect that uses a palette, but a palette that does not exist, brings down every board
that is a slave (as all are at power-up), takes the frame for new (C05) and has a LED that is not
on a strip marked off: rendering is undefined. -/
theorem bad_palette_crashes {env : Board.Env} {t₀ rand h s}
    (r : Board.Run env (Board.init env t₀ rand) h s) (hs : s.node.getCurrentState = .slave)
    {inp : Board.Input} (ha : BoardAwake env s inp) {p : Packet} {e : Effect}
    (hp : inp.first.packet = .ok (some p)) (hh : Hears s.node (some p) p)
    (hn : inp.second.frame = none)
    (ht : p.type = .setEffect) (hpal : 22 ≤ p.data[2].toNat)
    (he : env.registry.getEffect .arduino p.data[0] = .ok e)
    (huse : e ∈ [.colorCycle, .contrastBumps, .displayColorPalette, .lightning, .rainbowBumps,
      .rainbow, .spark] ∨ ∃ o, e = .rorschach o)
    (hlit : ∃ x ∈ ledsInOrder env.device, x.1.flagEnabled .off = false) :
    ∀ s', Board.loop env inp s ≠ .ok s' := by
  intro s' hl
  obtain ⟨h', r', _⟩ := board_is_a_node r
  obtain ⟨fs, leds, htick, _, _, hren, _⟩ := board_loop_awake ha hl
  have hpk := tick_adopts r'.wf hs hp hh (.inl ht) hn htick
  obtain ⟨cs, hcl, hcs⟩ := frameColours_of_ok hren
  obtain ⟨x, hx, hoff⟩ := hlit
  obtain ⟨k, hk, rfl⟩ := List.getElem_of_mem hx
  have hshow := hcs k hk
  unfold Shows at hshow
  rw [if_neg (by rw [hoff]; decide)] at hshow
  obtain ⟨e', rgb, hcur, hrgb, _⟩ := hshow
  have hcur' : e' = e := by
    rw [getCurrentEffect_iff] at hcur
    dsimp only at hcur
    rw [hpk, getCurrentEffect, if_neg (by rw [ht]; decide)] at hcur
    have : (env.registry.getEffect .arduino p.data[0]) = .ok e' := hcur
    rw [he] at this
    cases this; rfl
  subst hcur'
  obtain ⟨rng', hg⟩ := hrgb 0
  rw [Effect.getRGB] at hg
  dsimp only at hg
  rw [hpk, palette_out_of_range env.F .arduino e' _ _ _ p 0 huse nofun hpal] at hg
  cases hg

example : ∃ p, (Board.Demo.listen 1020 (some [0, 9, 2, 0, 0, 22])).packet = .ok (some p) ∧
    Hears (Board.Demo.start .node).node (some p) p ∧ p.type = .setEffect ∧ 22 ≤ p.data[2].toNat ∧
    (Board.Demo.env .node).registry.getEffect .arduino p.data[0] = .ok .colorCycle ∧
    (Board.Demo.start .node).node.getCurrentState = .slave ∧
    ∃ x ∈ ledsInOrder (Board.Demo.env .node).device, x.1.flagEnabled .off = false :=
  ⟨_, rfl, ⟨_, _, rfl⟩, by decide, by decide, by rfl, rfl,
    (Strip.new 2 [.bright], 0), by decide, by decide⟩

/-! ## C95: a board shows what it was told -/

/-- C95: after every iteration that is not skipped because of the battery, the LEDs of the board
(behind the LED on the board itself) show, in order, the picture of the current instruction at the
network time at which each was computed. -/
theorem board_shows_instruction {env : Board.Env} {t₀ rand h s}
    (r : Board.Run env (Board.init env t₀ rand) h s) {inp : Board.Input} (ha : BoardAwake env s inp)
    (h255 : totalLeds env.device ≤ 255) {s'} (hl : Board.loop env inp s = .ok s') :
    ∀ k (hk : k < (ledsInOrder env.device).length), ∃ c, s'.leds[k + 1]? = some c ∧
      Shows ⟨env.F, .arduino, env.registry, s'.node.getSetEffect,
          fun j => s'.node.getNetworkMillis (inp.clock j)⟩
        (ledsInOrder env.device)[k].1 (ledsInOrder env.device)[k].2
        (s'.node.getNetworkMillis (inp.clock k)) c := by
  have hlen : s.leds.length = (FastLedManager.newLeds env.device).length := by
    clear ha hl
    induction r with
    | nil => rfl
    | @cons h s s₁ inp _ hl ih =>
      by_cases ha : BoardAwake env s inp
      · obtain ⟨fs, leds, _, _, h1, h2, _⟩ := board_loop_awake ha hl
        obtain ⟨cs, hcs⟩ := frameColours_of_ok h2
        obtain ⟨leds', e1, e2, _⟩ := (frame_stays_in_buffer _ env.device inp.rng leds
          (h1.trans ih) (fun k hk => ⟨_, hcs.2 k hk⟩)).1 h255
        have : Board.render env inp s₁.node leds = .ok leds' := e1
        rw [h2] at this
        cases this
        rw [e2]
        simp only [FastLedManager.newLeds, List.length_replicate, ledCount_toNat]
        omega
      · rw [(board_loop_asleep ha hl).2.2, ih]
  obtain ⟨fs, leds, _, _, h1, h2, _⟩ := board_loop_awake ha hl
  obtain ⟨cs, hcs⟩ := frameColours_of_ok h2
  obtain ⟨leds', e1, e2, e3⟩ := (frame_stays_in_buffer _ env.device inp.rng leds
    (h1.trans hlen) (fun k hk => ⟨_, hcs.2 k hk⟩)).1 h255
  have : Board.render env inp s'.node leds = .ok leds' := e1
  rw [h2] at this
  cases this
  exact e3

/-- C95: on the fancy node the LED of the board itself shows the battery gauge during the first 20
seconds (if a reading was taken at boot) and nothing afterwards; the effects do not touch it,
unless the device has exactly one LED. -/
theorem board_led {env : Board.Env} (hp : env.program = .fancyNode)
    {s s' : Board.State} {inp : Board.Input} (ha : BoardAwake env s inp)
    (hn : totalLeds env.device ≠ 1) (h255 : totalLeds env.device ≤ 255) (hne : s.leds ≠ [])
    (hl : Board.loop env inp s = .ok s') :
    s'.leds[0]? = some (if env.atBoot ≠ 0 ∧ inp.millis.toNat < 20000
      then env.F.hsv2rgb ⟨Battery.gaugeHue env.atBoot, 255, 255⟩ else ⟨0, 0, 0⟩) := by
  obtain ⟨fs, leds, _, _, h1, h2, h3⟩ := board_loop_awake ha hl
  obtain ⟨cs, hcs⟩ := frameColours_of_ok h2
  have e := runEffect_eq hcs (FastLedManager.setLed env.device) id leds inp.rng
  have h2' : _ = _ := h2
  unfold Board.render at h2'
  rw [e] at h2'
  cases hw : writeAll (FastLedManager.setLed env.device) leds 0 cs with
  | error f => rw [hw] at h2'; cases h2'
  | ok l =>
    rw [hw] at h2'
    cases h2'
    rw [writeAll_keeps_first (fun h => hn (by
      have := ledCount_toNat env.device
      rw [h] at this
      have h1 : (1 : U8).toNat = 1 := rfl
      omega)) hw, h3 hp, List.getElem?_set_self (by
        rw [h1]
        exact List.length_pos_iff.2 hne)]
    unfold Battery.onboardLed
    congr 1

/-! ## C96: a board with an empty battery is dark and silent -/

theorem board_low_leds {env : Board.Env} {t₀ rand h s}
    (r : Board.Run env (Board.init env t₀ rand) h s) (hp : env.program = .fancyNode)
    (hexp : h.Pairwise fun newer older =>
      older.2.1.battery.expired = true → newer.2.1.battery.expired = true)
    (hlow : s.low = true) :
    (∀ j, j < s.leds.length → s.leds[j]? = some (if j < 2 then ⟨4, 0, 0⟩ else ⟨0, 0, 0⟩)) ∧
      ∃ x ∈ h, x.2.1.battery.expired = true := by
  induction r with
  | nil => cases hlow
  | @cons h s s' inp _ hl ih =>
    have hexp' := List.pairwise_cons.1 hexp
    have hres := cutoff_le_resume .fancyNode
    have e : Board.loopFancyNode env inp s = .ok s' := by
      have := hl; unfold Board.loop at this; rw [hp] at this; exact this
    simp only [Board.loopFancyNode, bind, Except.bind, pure, Except.pure] at e
    cases hex : inp.battery.expired with
    | false =>
      -- the timer has not expired: `battery_low` is kept, so it was set by an earlier iteration
      exfalso
      have hb : Battery.step .fancyNode s.low inp.battery = ⟨s.low, false, true⟩ := by
        simp [Battery.step, hex]
      have hlow' : s.low = true := by
        have ha : BoardAwake env s inp := fun _ => by rw [hb]
        rw [hb] at e
        simp only [Bool.false_eq_true, if_false, Bool.not_true] at e
        cases ht : Board.tick inp.first inp.second s.node with
        | error _ => rw [ht] at e; cases e
        | ok a =>
          rw [ht] at e
          dsimp only at e
          cases hr : Board.render env inp a.1
              (s.leds.set 0 (Battery.onboardLed env.F env.atBoot inp.millis)) with
          | error _ => rw [hr] at e; cases e
          | ok l => rw [hr] at e; cases e; exact hlow
      obtain ⟨_, x, hx, hxe⟩ := ih hexp'.2 hlow'
      have := hexp'.1 x hx hxe
      rw [hex] at this
      cases this
    | true =>
      refine ⟨?_, _, List.mem_cons_self, hex⟩
      cases hsl : s.low with
      | true =>
        by_cases hr : Battery.rawReading Battery.Kind.fancyNode.resume < inp.battery.value
        · have hb : Battery.step .fancyNode s.low inp.battery = ⟨false, false, true⟩ := by
            simp [Battery.step, hex, hsl, hr]
          exfalso
          rw [hb] at e
          simp only [Bool.false_eq_true, if_false, Bool.not_true] at e
          cases ht : Board.tick inp.first inp.second s.node with
          | error _ => rw [ht] at e; cases e
          | ok a =>
            rw [ht] at e
            dsimp only at e
            cases hr : Board.render env inp a.1
                (s.leds.set 0 (Battery.onboardLed env.F env.atBoot inp.millis)) with
            | error _ => rw [hr] at e; cases e
            | ok l => rw [hr] at e; cases e; cases hlow
        · have hb : Battery.step .fancyNode s.low inp.battery = ⟨true, false, false⟩ := by
            simp [Battery.step, hex, hsl, hr]
          rw [hb] at e
          simp only [Bool.false_eq_true, if_false, Bool.not_false, if_true] at e
          cases e
          exact (ih hexp'.2 hsl).1
      | false =>
        by_cases hc : inp.battery.value < Battery.rawReading Battery.Kind.fancyNode.lowCutoff
        · have hr : ¬ Battery.rawReading Battery.Kind.fancyNode.resume < inp.battery.value := by
            rw [BitVec.lt_def] at *; omega
          have hb : Battery.step .fancyNode s.low inp.battery = ⟨true, true, false⟩ := by
            simp [Battery.step, hex, hsl, hr, hc]
          rw [hb] at e
          simp only [if_true, Bool.not_false] at e
          unfold Board.lowBatteryLeds at e
          by_cases hlen : 1 < s.leds.length
          · rw [if_pos hlen] at e
            cases e
            intro j hj
            simp only [FastLedManager.clear, List.length_set, List.length_replicate] at hj ⊢
            rw [List.getElem?_set, List.getElem?_set]
            simp only [List.length_set, List.length_replicate]
            by_cases h1 : 1 = j
            · subst h1; simp [hj]
            · by_cases h0 : 0 = j
              · subst h0; simp [hj]
              · rw [if_neg h1, if_neg h0, if_neg (by omega), List.getElem?_replicate, if_pos hj]
                rfl
          · rw [if_neg hlen] at e; cases e
        · have hb : Battery.step .fancyNode s.low inp.battery = ⟨false, false, true⟩ := by
            simp [Battery.step, hex, hsl, hc]
          exfalso
          rw [hb] at e
          simp only [Bool.false_eq_true, if_false, Bool.not_true] at e
          cases ht : Board.tick inp.first inp.second s.node with
          | error _ => rw [ht] at e; cases e
          | ok a =>
            rw [ht] at e
            dsimp only at e
            cases hr : Board.render env inp a.1
                (s.leds.set 0 (Battery.onboardLed env.F env.atBoot inp.millis)) with
            | error _ => rw [hr] at e; cases e
            | ok l => rw [hr] at e; cases e; cases hlow

/-- C96: after every iteration that is skipped because of the battery, the LED on the board and the
first LED of the device are dim red and all others off, and the iteration neither listened nor
transmitted nor changed the state of the radio part.  (The start-up timer, once expired, stays
expired, as it does for 49 days, C37.) -/
theorem low_battery_board {env : Board.Env} {t₀ rand h s x}
    (r : Board.Run env (Board.init env t₀ rand) (x :: h) s) (ha : ¬ BoardAwake env x.1 x.2.1)
    (hexp : (x :: h).Pairwise fun newer older =>
      older.2.1.battery.expired = true → newer.2.1.battery.expired = true) :
    s.node = x.1.node ∧ s.aired = x.1.aired ∧
    ∀ j, j < s.leds.length → s.leds[j]? = some (if j < 2 then ⟨4, 0, 0⟩ else ⟨0, 0, 0⟩) := by
  have hp : env.program = .fancyNode :=
    Classical.byContradiction fun hp => ha fun h => absurd h hp
  have hact : ¬ (Battery.step .fancyNode x.1.low x.2.1.battery).active = true :=
    fun h => ha fun _ => h
  have hr := r
  cases r with
  | cons inp r' hl =>
    have hsleep := board_loop_asleep ha hl
    refine ⟨hsleep.1, hsleep.2.1, (board_low_leds hr hp hexp ?_).1⟩
    have hl' := board_asleep_low ha hl
    rw [hl']
    dsimp only at hact
    revert hact
    unfold Battery.step
    split
    · dsimp only
      split
      · split <;> simp
      · simp
    · simp

/-- The battery of a fancy node is empty. -/
example : ∃ h s, Board.Run (Board.Demo.env .fancyNode) (Board.Demo.start .fancyNode) h s ∧
    h.map (·.2.1) = [Board.Demo.input 1050 800 (some [0, 9, 2, 0, 0, 15]) none,
      Board.Demo.input 1020 700 none none] ∧
    (s.aired == [] && s.leds.length == 7 && s.leds[0]? == some ⟨4, 0, 0⟩ && s.low) = true :=
  Board.Demo.run_of_check (fun _ s => s.aired == [] && s.leds.length == 7 &&
    s.leds[0]? == some ⟨4, 0, 0⟩ && s.low) (by decide +kernel)

/-! ## C81 on the board -/

theorem board_counter {env : Board.Env} {t₀ rand h s} (hp : env.program = .node)
    (r : Board.Run env (Board.init env t₀ rand) h s) : s.watchdog = Watchdog.counter h.length := by
  induction r with
  | nil => rfl
  | @cons h s s' inp _ hl ih =>
    have : s'.watchdog = (Watchdog.step s.watchdog).2 := by
      simp only [Board.loop, hp, Board.loopNode, bind, Except.bind, pure, Except.pure] at hl
      split at hl
      · cases hl
      · split at hl
        · cases hl
        · cases hl; rfl
    rw [this, ih]; rfl

/-- C81 for the program as a whole: in every run of the node from power-up, an iteration feeds the
watchdog (its counter has passed 5) exactly if the number of iterations before it is a positive
multiple of six. -/
theorem board_feeds_watchdog {env : Board.Env} {t₀ rand x h s} (hp : env.program = .node)
    (r : Board.Run env (Board.init env t₀ rand) (x :: h) s) :
    5 < x.1.watchdog.toNat ↔ 0 < h.length ∧ h.length % 6 = 0 := by
  cases r with
  | cons inp r' _ =>
    rw [board_counter hp r', ← watchdog_schedule h.length]
    simp only [Watchdog.fed, Watchdog.step, decide_eq_true_eq, BitVec.lt_def]
    rfl

end Firefly.Props
