import Verif.Spec.Simulator
import Verif.Props.Frame
import Verif.Props.Motion
import Verif.Props.Fakes
import Mathlib.Data.List.Induction

/-! # The simulator (C143) -/

namespace Firefly.Props
open Spec

/-- C143.  Whether the location of an LED is the corner of its frame or its middle: the frames lie in
the window, no two overlap, and the LED is no larger than its frame. -/
theorem simulator_layout (n i : Nat) (hi : i < n) (a : Nat) (ha : a = 0 ∨ a = 10) (x y : Nat) :
    (Covers (Simulator.place i) a a x y →
      x < (Simulator.windowSize n).1 ∧ y < (Simulator.windowSize n).2) ∧
    (∀ j, Covers (Simulator.place i) a a x y → Covers (Simulator.place j) a a x y → i = j) ∧
    (Simulator.place i).ledSize ≤ (Simulator.place i).frameSize ∧
    a ≤ (Simulator.place i).x ∧ a ≤ (Simulator.place i).y := by
  simp only [Covers, Simulator.place, Simulator.windowSize, Simulator.kLedFrameSize,
    Simulator.kLedSize]
  refine ⟨?_, ?_, ?_, ?_, ?_⟩ <;> omega

/-- A point in the frame of the third of 20 LEDs. -/
example : Covers (Simulator.place 2) 0 0 65 15 ∧ Covers (Simulator.place 2) 10 10 65 15 := by
  unfold Covers; decide

/-- C143.  `SetGlobalColor` gives every LED of the window the colour. -/
theorem simulator_global_colour (leds : List CRGB) (c : CRGB) :
    Simulator.setGlobalColor leds.length leds c = .ok (List.replicate leds.length c) := by
  have h := fill_loop c leds.length leds (Nat.le_refl _)
  unfold Simulator.setGlobalColor
  rw [h, List.drop_length, List.append_nil]

/-- The colour that the simulator shows at time `t`: a red that pulses with FastLED's `cubicwave8`
once in 4096 ms, at two thirds of its brightness. -/
def simulatorColour (F : FastLED) (t : Nat) : CRGB :=
  F.hsv2rgb ⟨0, 255, BitVec.ofNat 8 ((F.cubicwave8 (BitVec.ofNat 8 (t / 16 % 256))).toNat * 2 / 3)⟩

theorem simulator_init (seeds : EffectSeeds) (rand : Rand) (junk junk' : PType × Vector U8 58)
    (leds : List CRGB) : ∃ s₀, Simulator.init seeds rand junk junk' leds = .ok s₀ ∧
      s₀.leds = leds ∧ s₀.clock = 0 ∧ s₀.node.state = .slave ∧ s₀.node.sent = [] ∧
      s₀.node.millisOffset = 0 ∧
      s₀.node.numEffects = 27 ∧ s₀.node.numPalettes = 22 ∧
      s₀.node.setEffectPacket.type = .setEffect ∧ s₀.node.setEffectPacket.len = 3 ∧
      s₀.node.setEffectPacket.data[0] = 1 ∧ s₀.node.setEffectPacket.data[2] = 0 ∧
      s₀.registry.getEffect .host 1 = .ok .colorCycle := by
  have hle : (allSlots (shippedEffects seeds)).length ≤ 255 := by
    rw [show (allSlots (shippedEffects seeds)).length = 35 from rfl]; decide
  obtain ⟨r, e, h⟩ := registered_of_small .host (shippedEffects seeds) hle
  have hn : r.getNumEffects = 27 := by rw [Registry.getNumEffects, h.effects]; rfl
  have h1 := h.getEffect hle .host 1
    (by rw [show (allSlots (shippedEffects seeds)).length = 35 from rfl]; decide)
  have hp : ((Node.init 0 rand junk junk').setEffectPacket : Packet) =
      ((⟨0, junk'.1, 0, junk'.2⟩ : Packet).writeSetEffect 1 0 0) := rfl
  refine ⟨⟨((Node.init 0 rand junk junk').setNumEffects r.getNumEffects).setNumPalettes 22, r, leds, 0⟩,
    ?_, rfl, rfl, rfl, rfl, rfl, hn, rfl, ?_, ?_, ?_, ?_, h1⟩
  · rw [Simulator.init, shippedRegistry, e]
    rfl
  all_goals
    simp only [Node.setNumPalettes, Node.setNumEffects, hp]
    simp [Packet.writeSetEffect]

theorem simulator_frame (F : FastLED) (s : Simulator.State) (inp : Nat × U16)
    (hl : s.leds.length = 20) (ho : s.node.millisOffset = 0)
    (ht : s.node.setEffectPacket.type = .setEffect) (hlen : s.node.setEffectPacket.len = 3)
    (h0 : s.node.setEffectPacket.data[0] = 1) (h2 : s.node.setEffectPacket.data[2] = 0)
    (hr : s.registry.getEffect .host 1 = .ok .colorCycle) :
    Simulator.body F s inp = .ok { s with
      leds := List.replicate 20 (simulatorColour F s.clock.toNat)
      clock := BitVec.ofNat 32 inp.1 } := by
  have hfr : FrameColours ⟨F, .host, s.registry, s.node.getSetEffect, fun _ =>
      s.node.getNetworkMillis s.clock⟩ Simulator.device
      (List.replicate 20 (simulatorColour F s.clock.toNat)) := by
    have hlen' : (List.replicate 20 (simulatorColour F s.clock.toNat)).length =
        (ledsInOrder Simulator.device).length := by rw [List.length_replicate]; rfl
    refine ⟨hlen', fun k hk => ?_⟩
    have hm : ∀ x ∈ ledsInOrder Simulator.device, x.1 = Strip.new 20 [] := by
      intro x hx
      simp only [ledsInOrder, Simulator.device, List.flatMap_cons, List.flatMap_nil,
        List.append_nil, List.mem_map] at hx
      obtain ⟨_, _, e⟩ := hx
      rw [← e]; rfl
    have hm := hm _ (List.getElem_mem hk)
    generalize (ledsInOrder Simulator.device)[k] = x at hm
    rw [hm, List.getElem_replicate, Shows, if_neg (by decide)]
    have hnm : s.node.getNetworkMillis s.clock = s.clock := by
      rw [Node.getNetworkMillis, ho]; simp
    simp only [hnm]
    obtain ⟨v, hv, hv'⟩ : ∃ v : U8, (∀ led rng, Effect.colorCycle.getColour F .host led s.clock
        (Strip.new 20 []) s.node.getSetEffect rng = .ok (.hsv ⟨0, 255, v⟩, rng)) ∧
        v.toNat = (F.cubicwave8 (BitVec.ofNat 8 (s.clock.toNat / 16 % 256))).toNat * 2 / 3 := by
      refine ⟨BitVec.ofNat 8 ((F.cubicwave8 (BitVec.ofNat 8 (s.clock.toNat / 16 % 256))).toNat * 2 / 3),
        fun led rng => ?_, ?_⟩
      · obtain ⟨v, hv, hv'⟩ := colour_cycle_pulse F .host led s.clock (Strip.new 20 [])
          s.node.getSetEffect rng ⟨fun _ => ⟨ht, hlen⟩, by
            show s.node.setEffectPacket.data[2].toNat < 22
            rw [h2]; decide⟩ (c := ⟨0, 255, 255⟩) (by
            show palettes[s.node.setEffectPacket.data[2].toNat]? = _
            rw [h2]; rfl)
        rw [hv]
        simp only at hv'
        rw [if_neg (by decide)] at hv'
        rw [show v = BitVec.ofNat 8 v.toNat by simp, hv']
      · have := (F.cubicwave8 (BitVec.ofNat 8 (s.clock.toNat / 16 % 256))).isLt
        rw [BitVec.toNat_ofNat]; omega
    refine ⟨.colorCycle, simulatorColour F s.clock.toNat, ?_, fun rng => ⟨rng, ?_⟩, ?_⟩
    · rw [CurrentEffect, if_neg (by
        show s.node.setEffectPacket.type ≠ _
        rw [ht]; decide)]
      exact ⟨fun _ => ⟨ht, hlen⟩, by
        show s.registry.getEffect .host s.node.setEffectPacket.data[0] = _
        rw [h0]; exact hr⟩
    · rw [Effect.getRGB, hv]
      simp only [Except.map, simulatorColour, ← hv', Colour.toRGB, BitVec.ofNat_toNat,
        BitVec.setWidth_eq]
    · rw [if_neg (by decide)]
  have key := writeAll_array (setLed := Simulator.setLed) (off := 0) .outOfBounds 20
    (fun l i c hL h => by
      have h'' : i.toNat < l.length := by omega
      refine ⟨l.set i.toNat c, ?_, by simp, by simp [h''], ?_⟩
      · simp [Simulator.setLed, h'']
      · intro j _ hj
        rw [List.getElem?_set_ne (by omega)])
    (fun l i c hL h => by
      have h'' : ¬ i.toNat < l.length := by omega
      simp [Simulator.setLed, h''])
    (List.replicate 20 (simulatorColour F s.clock.toNat)) s.leds 0 hl
  obtain ⟨leds, e1, len1, get1, -⟩ := key.1 (by simp) (by simp [hl])
  have hleds : leds = List.replicate 20 (simulatorColour F s.clock.toNat) := by
    apply List.ext_getElem (by simp [len1, hl])
    intro k h1 h2
    have := get1 k h2
    rw [Nat.zero_add, Nat.add_zero, List.getElem?_eq_getElem h1] at this
    exact Option.some.inj this
  have e := runEffect_eq hfr Simulator.setLed id s.leds inp.2
  simp only [Simulator.body, bind, Except.bind, pure, Except.pure]
  rw [e, show (0 : U8) = BitVec.ofNat 8 0 from rfl, e1, hleds]
  rfl

theorem simulator_snoc (F : FastLED) (s : Simulator.State) (es : List (Nat × U16)) (x : Nat × U16) :
    Simulator.run F s (es ++ [x]) = (Simulator.run F s es).bind fun s' => Simulator.body F s' x := by
  simp only [Simulator.run, List.foldlM_append, List.foldlM_cons, List.foldlM_nil, bind, pure]
  cases List.foldlM (Simulator.body F) s es with
  | error => rfl
  | ok s' =>
    simp only [Except.bind]
    cases Simulator.body F s' x <;> rfl

theorem simulator_run (F : FastLED) (s₀ : Simulator.State) (hl : s₀.leds.length = 20)
    (hc : s₀.clock = 0) (ho : s₀.node.millisOffset = 0)
    (ht : s₀.node.setEffectPacket.type = .setEffect) (hlen : s₀.node.setEffectPacket.len = 3)
    (h0 : s₀.node.setEffectPacket.data[0] = 1) (h2 : s₀.node.setEffectPacket.data[2] = 0)
    (hr : s₀.registry.getEffect .host 1 = .ok .colorCycle) (earlier : List (Nat × U16)) :
    ∃ leds, leds.length = 20 ∧ Simulator.run F s₀ earlier = .ok { s₀ with
      leds := leds, clock := BitVec.ofNat 32 ((earlier.getLast?.map (·.1)).getD 0) } := by
  induction earlier using List.reverseRecOn with
  | nil =>
    refine ⟨s₀.leds, hl, ?_⟩
    cases s₀
    simp only at hc
    rw [hc]; rfl
  | append_singleton es x ih =>
    obtain ⟨leds, hl', e'⟩ := ih
    refine ⟨List.replicate 20 (simulatorColour F
      (BitVec.ofNat 32 ((es.getLast?.map (·.1)).getD 0)).toNat), List.length_replicate, ?_⟩
    rw [simulator_snoc, e', Except.bind, simulator_frame F { s₀ with
      leds := leds, clock := BitVec.ofNat 32 ((es.getLast?.map (·.1)).getD 0) } x hl' ho ht hlen h0
      h2 hr, List.getLast?_append]
    rfl

/-- C143.  However long the window stays open, whatever the clock says and whatever the random
generator: the simulator never fails, its state machine never moves on from the state and the
instruction it starts with, and after every frame all twenty LEDs show the colour of the time that was
measured at the end of the frame before (zero for the first frame). -/
theorem simulator_pulses (F : FastLED) (seeds : EffectSeeds) (rand : Rand)
    (junk junk' : PType × Vector U8 58) (leds : List CRGB) (hl : leds.length = 20) :
    ∃ s₀, Simulator.init seeds rand junk junk' leds = .ok s₀ ∧ s₀.node.state = .slave ∧
      s₀.node.sent = [] ∧
      ∀ (earlier : List (Nat × U16)) (last : Nat × U16),
        Simulator.run F s₀ (earlier ++ [last]) = .ok { s₀ with
          leds := List.replicate 20
            (simulatorColour F ((earlier.getLast?.map (·.1)).getD 0 % 2 ^ 32))
          clock := BitVec.ofNat 32 last.1 } := by
  obtain ⟨s₀, e, hl₀, hc, hs, hsent, ho, -, -, ht, hlen, h0, h2, hr⟩ :=
    simulator_init seeds rand junk junk' leds
  refine ⟨s₀, e, hs, hsent, fun earlier last => ?_⟩
  obtain ⟨leds', hl', e'⟩ :=
    simulator_run F s₀ (by rw [hl₀, hl]) hc ho ht hlen h0 h2 hr earlier
  rw [simulator_snoc, e', Except.bind, simulator_frame F { s₀ with
    leds := leds', clock := BitVec.ofNat 32 ((earlier.getLast?.map (·.1)).getD 0) } last hl' ho ht
    hlen h0 h2 hr]
  simp only [BitVec.toNat_ofNat]

/-- Three frames (with the functions of `FastLED.reference`): the LEDs show the colour of 1000 ms, that is of a wave at
62 of 256. -/
example : ∃ s₀ s, Simulator.init ⟨0, 0, 0⟩ default (.heartbeat, Vector.replicate 58 0)
      (.heartbeat, Vector.replicate 58 0) (List.replicate 20 CRGB.black) = .ok s₀ ∧
    Simulator.run FastLED.reference s₀ [(20, 7), (1000, 8), (1020, 9)] = .ok s ∧
    s.leds = List.replicate 20 (simulatorColour FastLED.reference 1000) ∧
    simulatorColour FastLED.reference 1000 ≠ simulatorColour FastLED.reference 20 := by
  obtain ⟨s₀, e, -, -, h⟩ := simulator_pulses FastLED.reference ⟨0, 0, 0⟩ default
    (.heartbeat, Vector.replicate 58 0) (.heartbeat, Vector.replicate 58 0)
    (List.replicate 20 CRGB.black) rfl
  exact ⟨s₀, _, e, h [(20, 7), (1000, 8)] (1020, 9), rfl, by decide +kernel⟩

end Firefly.Props
