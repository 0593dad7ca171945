import Verif.Spec.Board
import Verif.Props.RadioHead
import Verif.Props.Robust
import Verif.Props.Effects

/-! # Helper lemmas for the LED boards -/

set_option linter.unusedSimpArgs false

namespace Firefly
open Spec Props

/-! ### Receiving a frame -/

theorem header_id (b0 b1 : U8) :
    ((b0.setWidth 16 <<< 8) + b1.setWidth 16 : U16).toNat = b0.toNat * 256 + b1.toNat := by
  have h0 := b0.isLt
  have h1 := b1.isLt
  rw [BitVec.toNat_add, BitVec.toNat_shiftLeft, BitVec.toNat_setWidth, BitVec.toNat_setWidth,
    Nat.shiftLeft_eq]
  omega

theorem Board.Listen.packet_none {l : Board.Listen} (h : l.frame = none) :
    l.packet = .ok none := by
  rw [Board.Listen.packet, h]; rfl

theorem Board.Listen.packet_decodes {l : Board.Listen} {p : Packet}
    (h : l.packet = .ok (some p)) : ∃ f, l.frame = some f ∧ f.length ≤ 61 ∧ Decodes f p := by
  unfold Board.Listen.packet at h
  cases hf : l.frame with
  | none => rw [hf] at h; cases h
  | some f =>
    rw [hf] at h
    have hlen : f.length ≤ 61 := (read_in_bounds_iff f _).1 ⟨_, h⟩
    refine ⟨f, rfl, hlen, ?_⟩
    match f, hlen with
    | [], _ => cases h
    | [_], _ => cases h
    | [_, _], _ => cases h
    | [_, _, _], _ => cases h
    | b0 :: b1 :: b2 :: b3 :: rest, hlen =>
      simp only [Hw.readPacket] at h
      rw [if_neg (by simp only [Hw.kMaxFifoSizePacketSize]; omega),
        if_neg (by simp only [List.length_cons] at hlen ⊢; omega)] at h
      cases h
      refine ⟨by simp only [List.length_cons]; omega, ⟨b0, b1, rfl, rfl, header_id b0 b1⟩, ?_, ?_,
        rfl⟩
      · show some b2 = _
        rw [byteOfType_typeOfByte]
      · intro i hi hlt
        simp only [Hw.copyPayload, Vector.getElem_ofFn]
        have hlt' : i < (b3 :: rest).length := by simp only [List.length_cons] at hlt ⊢; omega
        show (b3 :: rest)[i]? = _
        rw [List.getElem?_eq_getElem hlt']
        rfl

theorem Board.Listen.packet_total {l : Board.Listen} (h : ∀ f, l.frame = some f → f.length ≤ 61) :
    ∃ rx, l.packet = .ok rx := by
  unfold Board.Listen.packet
  cases hf : l.frame with
  | none => exact ⟨_, rfl⟩
  | some f => exact (read_in_bounds_iff f _).2 (h f hf)

/-! ### Transmitting -/

/-- Every transmission is appended to the log. -/
theorem Node.step_sent {plat op} {s s' : Node} (wf : s.WF) (h : Op.step plat op s = .ok s') :
    s'.sent = s.sent ++ Entry.transmitted ⟨s, op, s'⟩ := by
  cases op with
  | radioTick now rx =>
    cases Node.radioTick_cases wf h <;> simp [Entry.transmitted, Node.setTimer, Node.afterAccept]
  | setEffect now p =>
    simp only [Op.step] at h
    rw [setEffect_eq wf.idx] at h
    split at h
    · cases h
    · cases h; simp [Entry.transmitted, afterSetEffect]
  | setNumPalettes now n => cases h; simp [Entry.transmitted, Node.setNumPalettes]
  | setNumEffects now n => cases h; simp [Entry.transmitted, Node.setNumEffects]
  | endTick now => cases h; simp [Entry.transmitted]

/-- What is transmitted is heard in the same step (a relay), a local instruction, the current
instruction, or built by the device with a payload of at most four bytes. -/
theorem Node.step_transmitted {plat op} {s s' : Node} (wf : s.WF)
    (h : Op.step plat op s = .ok s') {q} (hq : q ∈ Entry.transmitted ⟨s, op, s'⟩) :
    Entry.heard ⟨s, op, s'⟩ = some q ∨ (∃ now p, op = .setEffect now p ∧ q.len = p.len) ∨
      (q.len = s.setEffectPacket.len) ∨ q.len.toNat ≤ 4 := by
  cases op with
  | radioTick now rx =>
    have hh := fun x => heard_tick (s' := x) (now := now) (rx := rx) wf
    cases Node.radioTick_cases wf h <;>
      simp_all [Entry.transmitted, Node.setTimer, Node.afterAccept, Node.afterSlaveEffect,
        Packet.writeHeartbeat, Packet.writeSetEffect, Node.stamped]
    case electionWon =>
      rcases hq with rfl | rfl <;> simp
  | setEffect now p =>
    simp only [Op.step] at h
    rw [setEffect_eq wf.idx] at h
    split at h
    · cases h
    · cases h
      simp [Entry.transmitted, afterSetEffect, stamped] at hq
      subst hq
      exact .inr (.inl ⟨_, _, rfl, rfl⟩)
  | setNumPalettes now n => cases h; simp [Entry.transmitted, Node.setNumPalettes] at hq
  | setNumEffects now n => cases h; simp [Entry.transmitted, Node.setNumEffects] at hq
  | endTick now => cases h; simp [Entry.transmitted] at hq

theorem mapM_sendPacket {l : List Packet} (h : ∀ q ∈ l, q.len.toNat ≤ 58) :
    ∃ fs, l.mapM Hw.sendPacket = .ok fs := by
  induction l with
  | nil => exact ⟨[], rfl⟩
  | cons a l ih =>
    obtain ⟨fs, e⟩ := ih fun q hq => h q (List.mem_cons_of_mem _ hq)
    rw [List.mapM_cons, sendPacket_ok (h a List.mem_cons_self), e]
    exact ⟨_, rfl⟩

theorem mapM_mem {l : List Packet} {fs : List (List U8)} (h : l.mapM Hw.sendPacket = .ok fs)
    {f} (hf : f ∈ fs) : ∃ q ∈ l, Hw.sendPacket q = .ok f := by
  induction l generalizing fs with
  | nil => cases h; cases hf
  | cons a l ih =>
    rw [List.mapM_cons] at h
    cases ha : Hw.sendPacket a with
    | error e => rw [ha] at h; cases h
    | ok g =>
      cases hl : l.mapM Hw.sendPacket with
      | error e => rw [ha, hl] at h; cases h
      | ok gs =>
        rw [ha, hl] at h
        cases h
        rcases List.mem_cons.1 hf with rfl | hf
        · exact ⟨a, List.mem_cons_self, ha⟩
        · obtain ⟨q, hq, e⟩ := ih hl hf
          exact ⟨q, List.mem_cons_of_mem _ hq, e⟩

/-! ### Ticks on the radio -/

theorem Board.frames_eq (s s' : Node) (op : Op) :
    Board.frames s s' = (Entry.transmitted ⟨s, op, s'⟩).mapM Hw.sendPacket := rfl

theorem Board.radioTick_ok {l : Board.Listen} {s s' : Node} {fs} :
    Board.radioTick l s = .ok (s', fs) ↔ ∃ rx, l.packet = .ok rx ∧
      Op.step .arduino (.radioTick l.now rx) s = .ok s' ∧ Board.frames s s' = .ok fs := by
  simp only [Board.radioTick, bind, Except.bind, pure, Except.pure, Op.step]
  cases l.packet with
  | error e => simp
  | ok rx =>
    simp only [Except.ok.injEq, exists_eq_left']
    cases h2 : s.radioTick .arduino l.now rx with
    | error e => simp
    | ok s₁ =>
      cases h3 : Board.frames s s₁ with
      | error e =>
        simp only [h3, Except.ok.injEq, reduceCtorEq, false_iff]
        rintro ⟨rfl, h⟩
        rw [h3] at h; cases h
      | ok gs =>
        simp only [h3, Except.ok.injEq, Prod.mk.injEq]
        constructor
        · rintro ⟨rfl, rfl⟩; exact ⟨rfl, h3⟩
        · rintro ⟨rfl, h⟩; rw [h3] at h; cases h; exact ⟨rfl, rfl⟩

theorem Board.tick_ok {l₁ l₂ : Board.Listen} {s s' : Node} {fs}
    (h : Board.tick l₁ l₂ s = .ok (s', fs)) :
    ∃ s₁ f₁, Board.radioTick l₁ s = .ok (s₁, f₁) ∧
      ((s₁.tickRun = false ∧ s' = { s₁ with tickRun := true } ∧ fs = f₁) ∨
       (s₁.tickRun = true ∧ ∃ s₂ f₂, Board.radioTick l₂ s₁ = .ok (s₂, f₂) ∧
          s' = { s₂ with tickRun := true } ∧ fs = f₁ ++ f₂)) := by
  simp only [Board.tick, bind, Except.bind, pure, Except.pure] at h
  cases h1 : Board.radioTick l₁ s with
  | error e => rw [h1] at h; cases h
  | ok a =>
    rw [h1] at h
    refine ⟨a.1, a.2, rfl, ?_⟩
    dsimp only at h
    cases ht : a.1.tickRun with
    | false =>
      rw [if_neg (by simp [ht])] at h
      cases h
      exact .inl ⟨rfl, rfl, rfl⟩
    | true =>
      rw [if_pos ht] at h
      cases h2 : Board.radioTick l₂ a.1 with
      | error e => rw [h2] at h; cases h
      | ok b =>
        rw [h2] at h
        cases h
        exact .inr ⟨rfl, b.1, b.2, rfl, rfl, rfl⟩

/-- What keeps a board's radio part and display from faulting. -/
structure Good (s : Node) : Prop where
  wf : s.WF
  inst : IsInstruction s.setEffectPacket
  pal : s.setEffectPacket.type = .setEffect → s.setEffectPacket.data[2].toNat < 22
  len : s.setEffectPacket.len.toNat ≤ 58
  palettes : s.numPalettes = 22
  effects : s.numEffects ≠ 0

theorem heard_rx {s s' : Node} {now rx p} (wf : s.WF)
    (h : Entry.heard ⟨s, .radioTick now rx, s'⟩ = some p) : rx = some p := by
  rw [heard_tick wf] at h
  unfold Node.delivered at h
  split at h
  · cases h
  · split at h
    · cases h
    · cases h; rfl

theorem Node.step_counts {plat now rx} {s s' : Node} (wf : s.WF)
    (h : Op.step plat (.radioTick now rx) s = .ok s') :
    s'.numPalettes = s.numPalettes ∧ s'.numEffects = s.numEffects := by
  cases Node.radioTick_cases wf h <;> simp [Node.setTimer, Node.afterAccept, Node.afterSlaveEffect]

theorem Good.step {s s' : Node} (g : Good s) {now rx}
    (hrx : ∀ p, rx = some p → p.len = 0 ∧ (p.type = .setEffect → p.data[2].toNat < 22))
    (h : Op.step .arduino (.radioTick now rx) s = .ok s') : Good s' := by
  have wf' := Node.step_wf g.wf h
  have hc := Node.step_counts g.wf h
  have hp : s'.numPalettes = 22 := hc.1.trans g.palettes
  have he : s'.numEffects ≠ 0 := by rw [hc.2]; exact g.effects
  have hi := Node.step_instruction g.wf g.inst (fun _ _ h => by cases h) h
  have heard := fun p => heard_rx (s' := s') (now := now) (rx := rx) (p := p) g.wf
  cases in_step g.wf h with
  | keep _ _ hc => exact ⟨wf', hi, by rw [hc]; exact g.pal, by rw [hc]; exact g.len, hp, he⟩
  | takeOver _ _ _ _ hc => exact ⟨wf', hi, by rw [hc]; exact g.pal, by rw [hc]; exact g.len, hp, he⟩
  | locally p hop => cases hop
  | slaveHeard p hh _ _ _ hc =>
    have := hrx p (heard p hh)
    exact ⟨wf', hi, by rw [hc]; exact this.2, by rw [hc, this.1]; decide, hp, he⟩
  | masterHeard p hh _ _ _ hc =>
    have := hrx p (heard p hh)
    exact ⟨wf', hi, by rw [hc]; exact this.2, by rw [hc, this.1]; decide, hp, he⟩
  | change q hf =>
    have h1 := hf.adopted
    have h2 := (fresh_choice_in_range hf g.effects
      (by show s.numPalettes ≠ 0; rw [g.palettes]; decide)).2
    have h3 : s'.setEffectPacket.data = q.data := h1.2.2
    have h4 : s'.setEffectPacket.len = q.len := h1.2.1
    refine ⟨wf', hi, fun _ => ?_, ?_, hp, he⟩
    · rw [h3]
      refine Nat.lt_of_lt_of_eq h2 ?_
      show s.numPalettes.toNat = 22
      rw [g.palettes]; rfl
    · rw [h4, hf.len]; decide
  | repeats q hf =>
    have h1 := hf.kept
    have h2 : s'.setEffectPacket.data = s.setEffectPacket.data := h1.2.2
    have h3 : s'.setEffectPacket.len = s.setEffectPacket.len := h1.2.1
    have h4 : s'.setEffectPacket.type = s.setEffectPacket.type := h1.1
    exact ⟨wf', hi, by rw [h4, h2]; exact g.pal, by rw [h3]; exact g.len, hp, he⟩

theorem Spec.Decodes.palette {f p} (d : Decodes f p) (hf : Harmless f) (ht : p.type = .setEffect) :
    p.data[2].toNat < 22 := by
  obtain ⟨b, hb, hlt⟩ := hf.2 (by rw [d.type, ht]; rfl) d.payload
  have h5 : 2 + 3 < f.length := by
    rcases Nat.lt_or_ge 5 f.length with h | h
    · exact h
    · rw [List.getElem?_eq_none h] at hb; cases hb
  have := d.data 2 (by decide) h5
  rw [hb] at this
  cases this
  exact hlt

theorem Good.radioTick {s : Node} (g : Good s) {l : Board.Listen}
    (hf : ∀ f, l.frame = some f → Harmless f) :
    ∃ s' fs, Board.radioTick l s = .ok (s', fs) ∧ Good s' := by
  obtain ⟨rx, hrx⟩ := Board.Listen.packet_total fun f h => (hf f h).1
  have hgood : ∀ p, rx = some p → p.len = 0 ∧ (p.type = .setEffect → p.data[2].toNat < 22) := by
    rintro p rfl
    obtain ⟨f, hf', _, d⟩ := Board.Listen.packet_decodes hrx
    exact ⟨d.len, d.palette (hf f hf')⟩
  have hs : ∃ s', Op.step .arduino (.radioTick l.now rx) s = .ok s' := by
    rcases Node.radioTick_result (plat := .arduino) (now := l.now) (rx := rx) g.wf with
      ⟨s', h2, _⟩ | ⟨h, _⟩ | ⟨h, _⟩
    · exact ⟨s', h2⟩
    · cases h
    · cases h
  obtain ⟨s', hs'⟩ := hs
  have hl : ∀ q ∈ Entry.transmitted ⟨s, .radioTick l.now rx, s'⟩, q.len.toNat ≤ 58 := by
    intro q hq
    rcases Node.step_transmitted g.wf hs' hq with h | ⟨_, _, h, _⟩ | h | h
    · rw [(hgood q (heard_rx g.wf h)).1]; decide
    · cases h
    · rw [h]; exact g.len
    · omega
  obtain ⟨fs, e⟩ := mapM_sendPacket hl
  exact ⟨s', fs, Board.radioTick_ok.2 ⟨rx, hrx, hs', e⟩, g.step hgood hs'⟩

theorem Good.tickRun {s : Node} (g : Good s) : Good { s with tickRun := true } :=
  ⟨⟨g.wf.idx, g.wf.next, g.wf.timerNone⟩, g.inst, g.pal, g.len, g.palettes, g.effects⟩

theorem Good.tick {s : Node} (g : Good s) {l₁ l₂ : Board.Listen}
    (h₁ : ∀ f, l₁.frame = some f → Harmless f) (h₂ : ∀ f, l₂.frame = some f → Harmless f) :
    ∃ s' fs, Board.tick l₁ l₂ s = .ok (s', fs) ∧ Good s' := by
  obtain ⟨s₁, f₁, e₁, g₁⟩ := g.radioTick h₁
  simp only [Board.tick, bind, Except.bind, pure, Except.pure, e₁]
  cases ht : s₁.tickRun with
  | false => exact ⟨_, _, rfl, g₁.tickRun⟩
  | true =>
    obtain ⟨s₂, f₂, e₂, g₂⟩ := g₁.radioTick h₂
    simp only [if_pos, e₂]
    exact ⟨_, _, rfl, g₂.tickRun⟩

/-! ### Iterations of the loop -/

theorem board_loop_awake {env : Board.Env} {inp : Board.Input} {s s' : Board.State}
    (ha : BoardAwake env s inp) (h : Board.loop env inp s = .ok s') :
    ∃ fs leds, Board.tick inp.first inp.second s.node = .ok (s'.node, fs) ∧
      s'.aired = s.aired ++ fs ∧ leds.length = s.leds.length ∧
      Board.render env inp s'.node leds = .ok s'.leds ∧
      (env.program = .fancyNode → leds = leds.set 0 (Battery.onboardLed env.F env.atBoot inp.millis)) := by
  unfold Board.loop at h
  cases hp : env.program with
  | node =>
    rw [hp] at h
    simp only [Board.loopNode, bind, Except.bind, pure, Except.pure] at h
    cases ht : Board.tick inp.first inp.second s.node with
    | error e => rw [ht] at h; cases h
    | ok a =>
      rw [ht] at h
      dsimp only at h
      cases hl : Board.render env inp a.1 s.leds with
      | error e => rw [hl] at h; cases h
      | ok leds =>
        rw [hl] at h
        cases h
        exact ⟨a.2, s.leds, rfl, rfl, rfl, hl, nofun⟩
  | fancyNode =>
    have hact := ha hp
    rw [hp] at h
    simp only [Board.loopFancyNode, bind, Except.bind, pure, Except.pure, hact] at h
    have key : ∀ l₀ : List CRGB, l₀.length = s.leds.length →
        ((Board.tick inp.first inp.second s.node).bind fun a =>
          (Board.render env inp a.1
            (l₀.set 0 (Battery.onboardLed env.F env.atBoot inp.millis))).bind fun leds =>
            .ok { s with
              low := (Battery.step .fancyNode s.low inp.battery).low
              node := a.1, aired := s.aired ++ a.2, leds := leds }) = .ok s' →
        ∃ fs leds, Board.tick inp.first inp.second s.node = .ok (s'.node, fs) ∧
          s'.aired = s.aired ++ fs ∧ leds.length = s.leds.length ∧
          Board.render env inp s'.node leds = .ok s'.leds ∧
          (Board.Program.fancyNode = .fancyNode →
            leds = leds.set 0 (Battery.onboardLed env.F env.atBoot inp.millis)) := by
      intro l₀ hlen h
      simp only [Except.bind] at h
      cases ht : Board.tick inp.first inp.second s.node with
      | error e => rw [ht] at h; cases h
      | ok a =>
        rw [ht] at h
        dsimp only at h
        cases hl : Board.render env inp a.1
            (l₀.set 0 (Battery.onboardLed env.F env.atBoot inp.millis)) with
        | error e => rw [hl] at h; cases h
        | ok leds =>
          rw [hl] at h
          cases h
          exact ⟨a.2, _, rfl, rfl, by simp [hlen], hl, fun _ => by simp⟩
    by_cases hsd : (Battery.step .fancyNode s.low inp.battery).shutDown = true
    · rw [if_pos hsd] at h
      cases hlb : Board.lowBatteryLeds s.leds with
      | error e => rw [hlb] at h; cases h
      | ok l₀ =>
        rw [hlb] at h
        dsimp only at h
        rw [if_neg (by decide)] at h
        refine key l₀ ?_ h
        unfold Board.lowBatteryLeds at hlb
        split at hlb
        · cases hlb; simp [FastLedManager.clear]
        · cases hlb
    · rw [if_neg hsd] at h
      rw [if_neg (by decide)] at h
      exact key s.leds rfl h

theorem board_loop_asleep {env : Board.Env} {inp : Board.Input} {s s' : Board.State}
    (ha : ¬ BoardAwake env s inp) (h : Board.loop env inp s = .ok s') :
    s'.node = s.node ∧ s'.aired = s.aired ∧ s'.leds.length = s.leds.length := by
  unfold BoardAwake at ha
  have hp : env.program = .fancyNode := Classical.byContradiction fun hp => ha fun h => absurd h hp
  have hact : ¬ (Battery.step .fancyNode s.low inp.battery).active = true := fun h => ha fun _ => h
  unfold Board.loop at h
  rw [hp] at h
  simp only [Board.loopFancyNode, bind, Except.bind, pure, Except.pure, hact] at h
  by_cases hsd : (Battery.step .fancyNode s.low inp.battery).shutDown = true
  · rw [if_pos hsd] at h
    cases hlb : Board.lowBatteryLeds s.leds with
    | error e => rw [hlb] at h; cases h
    | ok l₀ =>
      rw [hlb] at h
      cases h
      refine ⟨rfl, rfl, ?_⟩
      unfold Board.lowBatteryLeds at hlb
      split at hlb
      · cases hlb; simp [FastLedManager.clear]
      · cases hlb
  · rw [if_neg hsd] at h
    cases h
    exact ⟨rfl, rfl, rfl⟩

theorem board_asleep_low {env : Board.Env} {inp : Board.Input} {s s' : Board.State}
    (ha : ¬ BoardAwake env s inp) (h : Board.loop env inp s = .ok s') :
    s'.low = (Battery.step .fancyNode s.low inp.battery).low := by
  unfold BoardAwake at ha
  have hp : env.program = .fancyNode := Classical.byContradiction fun hp => ha fun h => absurd h hp
  have hact : ¬ (Battery.step .fancyNode s.low inp.battery).active = true := fun h => ha fun _ => h
  unfold Board.loop at h
  rw [hp] at h
  simp only [Board.loopFancyNode, bind, Except.bind, pure, Except.pure, hact] at h
  by_cases hsd : (Battery.step .fancyNode s.low inp.battery).shutDown = true
  · rw [if_pos hsd] at h
    cases hlb : Board.lowBatteryLeds s.leds with
    | error e => rw [hlb] at h; cases h
    | ok l₀ => rw [hlb] at h; cases h; rfl
  · rw [if_neg hsd] at h
    cases h
    rfl

theorem writeAll_keeps_first {d : Device} (hd : d.getLedCount ≠ 1) {cs : List CRGB}
    {leds leds' : List CRGB} {i : U8}
    (h : writeAll (FastLedManager.setLed d) leds i cs = .ok leds') : leds'[0]? = leds[0]? := by
  induction cs generalizing leds i with
  | nil => cases h; rfl
  | cons c cs ih =>
    unfold writeAll at h
    by_cases hi : i.toNat + 1 < leds.length
    · have hset : FastLedManager.setLed d leds i c = .ok (leds.set (i.toNat + 1) c) := by
        simp only [FastLedManager.setLed, bind, Except.bind, pure, Except.pure]
        rw [if_neg (fun h => hd h.1)]
        exact if_pos hi
      rw [hset] at h
      rw [ih h, List.getElem?_set_ne (by omega)]
    · rw [fastLed_fault d leds i c hi] at h
      cases h

/-! ### A concrete board for the examples -/

namespace Board.Demo

/-- A board with the device of Props/Frame, FastLED's portable code and the shipped effects. -/
def env (program : Program) : Env where
  F := FastLED.reference
  device := exampleDevice
  registry := (shippedRegistry .arduino ⟨1, 2, 3⟩).toOption.getD .empty
  program := program
  atBoot := 0

theorem env_shipped (program : Program) :
    shippedRegistry .arduino ⟨1, 2, 3⟩ = .ok (env program).registry := by
  obtain ⟨r, e, _⟩ := registered_of_small .arduino (shippedEffects ⟨1, 2, 3⟩)
    (by rw [show (allSlots (shippedEffects ⟨1, 2, 3⟩)).length = 35 from rfl]; decide)
  have e : shippedRegistry .arduino ⟨1, 2, 3⟩ = .ok r := e
  show _ = Except.ok ((shippedRegistry .arduino ⟨1, 2, 3⟩).toOption.getD .empty)
  rw [e]
  rfl

/-- Power-up at time 1000. -/
def start (program : Program) : State := init (env program) 1000 (fun _ => 7)

/-- What a radio tick sees at time `t` with the frame `f` on the air; the memory is full of
`0xAA`. -/
def listen (t : U32) (f : Option (List U8)) : Listen := ⟨t, f, .claimMaster, Vector.replicate 58 0xAA⟩

/-- An iteration at time `t` with the battery reading `v` and the given frames on the air. -/
def input (t : U32) (v : U16) (f g : Option (List U8)) : Input where
  battery := ⟨true, v⟩
  millis := t
  first := listen t f
  second := listen t g
  clock := fun k => t + BitVec.ofNat 32 k
  rng := 1337

/-- Runs a list of iterations (the last one first). -/
def runList (env : Env) (s₀ : State) : List Input → Option (List (State × Input × State) × State)
  | [] => some ([], s₀)
  | inp :: l =>
    match runList env s₀ l with
    | none => none
    | some (h, s) =>
      match loop env inp s with
      | .ok s' => some ((s, inp, s') :: h, s')
      | .error _ => none

theorem runList_run {env : Env} {s₀ : State} {l : List Input} {h s}
    (e : runList env s₀ l = some (h, s)) : Board.Run env s₀ h s ∧ h.map (·.2.1) = l := by
  induction l generalizing h s with
  | nil => cases e; exact ⟨.nil, rfl⟩
  | cons inp l ih =>
    unfold runList at e
    split at e
    · cases e
    · rename_i h' s' hr
      split at e
      · rename_i s'' hl
        cases e
        exact ⟨.cons _ (ih hr).1 hl, by rw [List.map_cons, (ih hr).2]⟩
      · cases e

/-- A run that passes a check exists if executing it passes the check. -/
theorem run_of_check {env : Env} {s₀ : State} {l : List Input}
    (chk : List (State × Input × State) → State → Bool)
    (e : (runList env s₀ l).any (fun x => chk x.1 x.2) = true) :
    ∃ h s, Board.Run env s₀ h s ∧ h.map (·.2.1) = l ∧ chk h s = true := by
  cases hb : runList env s₀ l with
  | none => rw [hb] at e; cases e
  | some x =>
    rw [hb] at e
    exact ⟨x.1, x.2, (runList_run hb).1, (runList_run hb).2, by simpa using e⟩

end Board.Demo

end Firefly
