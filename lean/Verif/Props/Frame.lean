import Verif.Lemmas.Frame

/-! # Properties of rendering a frame (C53, C54) -/

namespace Firefly.Props
open Firefly Spec

/-! ## C53: every LED is written once, in order, with its own colour -/

/-- C53: the calls made to the LED driver during a frame are one write for each LED of the
device, in order, with the colour specified for it, and then one push of the frame. -/
theorem frame_writes_each_led_once (fr : Frame) (d : Device) (rng : U16)
    (h255 : totalLeds d ≤ 255) {ops : List LedOp} (h : runEffectTrace fr d rng = .ok ops) :
    ∃ colours : List CRGB, ∃ hl : colours.length = (ledsInOrder d).length,
      (∀ k (hk : k < (ledsInOrder d).length),
        Shows fr (ledsInOrder d)[k].1 (ledsInOrder d)[k].2 (fr.now k) colours[k]) ∧
      ops.length = totalLeds d + 1 ∧
      (∀ k (hk : k < colours.length), ∃ i : U8, i.toNat = k ∧
        ops[k]? = some (.set i colours[k])) ∧
      ops[totalLeds d]? = some .show := by
  obtain ⟨cs, hcs⟩ := frameColours_of_ok h
  have e := runEffect_eq hcs (fun l i c => .ok (l ++ [LedOp.set i c])) (· ++ [.show]) [] rng
  unfold runEffectTrace at h
  have ht := writeAll_trace cs [] 0
  have h0 : (BitVec.ofNat 8 0 : U8) = 0 := rfl
  rw [h0] at ht
  rw [h, ht] at e
  obtain ⟨hl, hcs⟩ := hcs
  simp only [Except.map, List.nil_append, Nat.zero_add, Except.ok.injEq] at e
  have hlen := ledsInOrder_length d
  subst e
  refine ⟨cs, hl, hcs, by simp [hl, hlen], ?_, ?_⟩
  · intro k hk
    refine ⟨BitVec.ofNat 8 k, by rw [BitVec.toNat_ofNat]; omega, ?_⟩
    rw [List.getElem?_append_left (by simpa using hk)]
    simp [hk]
  · rw [List.getElem?_append_right (by simp [hl, hlen])]
    simp [hl, hlen]

/-- C53: the frame is rendered whenever every LED has a colour. -/
theorem frame_defined (fr : Frame) (d : Device) (rng : U16)
    (h : ∀ k (hk : k < (ledsInOrder d).length), ∃ c,
      Shows fr (ledsInOrder d)[k].1 (ledsInOrder d)[k].2 (fr.now k) c) :
    ∃ ops, runEffectTrace fr d rng = .ok ops := by
  obtain ⟨cs, hcs⟩ := frameColours_of_defined h
  have e := runEffect_eq hcs (fun l i c => .ok (l ++ [LedOp.set i c])) (· ++ [.show]) [] rng
  have ht := writeAll_trace cs [] 0
  have h0 : (BitVec.ofNat 8 0 : U8) = 0 := rfl
  rw [h0] at ht
  rw [ht] at e
  exact ⟨_, e⟩

/-- Each LED has at most one specified colour, so the frame is determined. -/
theorem shown_colour_unique {fr : Frame} {strip : Strip} {i : Nat} {t : U32} {c c' : CRGB}
    (h : Shows fr strip i t c) (h' : Shows fr strip i t c') : c = c' := h.unique h'

/-- A device with a plain strip, a reversed strip, a dim strip and a strip that is off. -/
def exampleDevice : Device :=
  ⟨1000, [Strip.new 2 [.bright], Strip.new 2 [.bright, .reversed], Strip.new 1 [.bright, .dim],
    Strip.new 1 [.off]]⟩

/-- The only effect is the rainbow; the instruction names effect 0 and palette 15. -/
def exampleFrame : Frame where
  F := FastLED.reference
  plat := .host
  registry := ⟨[.rainbow], [], [0]⟩
  packet := { id := 7, type := .setEffect, len := 3, data := (Vector.replicate 58 0).set 2 15 }
  now := fun k => 1000 + BitVec.ofNat 32 k

example : totalLeds exampleDevice = 6 ∧ (ledsInOrder exampleDevice).map (·.2) = [0, 1, 0, 1, 0, 0] :=
  by decide

example : ∃ c₀ c₁ c₂ c₃ c₄, runEffectTrace exampleFrame exampleDevice 0 =
    .ok [.set 0 c₀, .set 1 c₁, .set 2 c₂, .set 3 c₃, .set 4 c₄, .set 5 ⟨0, 0, 0⟩, .show] :=
  ⟨⟨255, 255, 255⟩, ⟨255, 255, 255⟩, ⟨255, 255, 255⟩, ⟨255, 255, 255⟩, ⟨31, 31, 31⟩,
    by decide +kernel⟩

/-! ## C54: rendering stays inside the LED buffer -/

/-- C54: on the hardware, if every LED of the device has a colour, then rendering a frame stays
inside the LED buffer (whatever it held before) if the device has at most 255 LEDs, and the LED after the on-board one at
distance `k` then holds the colour of the `k`-th LED of the device; with more than 255 LEDs
rendering writes outside the buffer. -/
theorem frame_stays_in_buffer (fr : Frame) (d : Device) (rng : U16) (leds₀ : List CRGB)
    (hl₀ : leds₀.length = (FastLedManager.newLeds d).length)
    (hdef : ∀ k (hk : k < (ledsInOrder d).length), ∃ c,
      Shows fr (ledsInOrder d)[k].1 (ledsInOrder d)[k].2 (fr.now k) c) :
    (totalLeds d ≤ 255 → ∃ leds,
      runEffect fr (FastLedManager.setLed d) id d leds₀ rng = .ok leds ∧
        leds.length = totalLeds d + 1 ∧
        ∀ k (hk : k < (ledsInOrder d).length), ∃ c, leds[k + 1]? = some c ∧
          Shows fr (ledsInOrder d)[k].1 (ledsInOrder d)[k].2 (fr.now k) c) ∧
    (255 < totalLeds d →
      runEffect fr (FastLedManager.setLed d) id d leds₀ rng =
        .error .outOfBounds) := by
  obtain ⟨cs, hcs⟩ := frameColours_of_defined hdef
  have e := runEffect_eq hcs (FastLedManager.setLed d) id leds₀ rng
  obtain ⟨hl, hcs⟩ := hcs
  have hlen := ledsInOrder_length d
  have hcount := ledCount_toNat d
  have hnew : leds₀.length = totalLeds d % 256 + 1 := by
    rw [hl₀]
    simp [FastLedManager.newLeds, hcount]
  have key := writeAll_array (off := 1) .outOfBounds _ (fun l i c _ => fastLed_set d l i c)
    (fun l i c _ => fastLed_fault d l i c) cs leds₀ 0 rfl
  have h0 : (BitVec.ofNat 8 0 : U8) = 0 := rfl
  rw [h0] at key
  rw [e]
  constructor
  · intro h
    obtain ⟨leds, e1, len1, get1, -⟩ := key.1 (by omega) (by omega)
    refine ⟨leds, by rw [e1]; rfl, by omega, ?_⟩
    intro k hk
    refine ⟨cs[k], ?_, hcs k hk⟩
    have := get1 k (by omega)
    rw [Nat.zero_add] at this
    exact this
  · intro h
    rw [key.2 (by omega) (by omega) (by omega) (by omega)]
    rfl

/-- C54: in particular for every device of the catalogue. -/
theorem catalogue_in_buffer : ∀ x ∈ Devices.catalogue, totalLeds x.2 ≤ 255 := by decide

example : (runEffect exampleFrame (FastLedManager.setLed exampleDevice) id exampleDevice
    (FastLedManager.newLeds exampleDevice) 0).map (·.length) = .ok 7 := by decide +kernel

/-- C54: the test double never aborts up to 255 LEDs and holds the same picture; beyond that
its assertion fails. -/
theorem fake_frame_stays_in_buffer (fr : Frame) (d : Device) (rng : U16)
    (hdef : ∀ k (hk : k < (ledsInOrder d).length), ∃ c,
      Shows fr (ledsInOrder d)[k].1 (ledsInOrder d)[k].2 (fr.now k) c) :
    (totalLeds d ≤ 255 → ∃ leds,
      runEffect fr (FakeLedManager.setLed .host d) id d
          (List.replicate d.getLedCount.toNat CRGB.black) rng = .ok leds ∧
        ∀ k (hk : k < (ledsInOrder d).length), ∃ c, leds[k]? = some c ∧
          Shows fr (ledsInOrder d)[k].1 (ledsInOrder d)[k].2 (fr.now k) c) ∧
    (255 < totalLeds d →
      runEffect fr (FakeLedManager.setLed .host d) id d
        (List.replicate d.getLedCount.toNat CRGB.black) rng = .error .assertFail) := by
  obtain ⟨cs, hcs⟩ := frameColours_of_defined hdef
  have e := runEffect_eq hcs (FakeLedManager.setLed .host d) id
    (List.replicate d.getLedCount.toNat CRGB.black) rng
  obtain ⟨hl, hcs⟩ := hcs
  have hlen := ledsInOrder_length d
  have hcount := ledCount_toNat d
  have hnew : (List.replicate d.getLedCount.toNat CRGB.black).length = totalLeds d % 256 := by
    simp [hcount]
  have key := writeAll_array (setLed := FakeLedManager.setLed .host d) (off := 0) .assertFail
    d.getLedCount.toNat
    (fun l i c hL h => by
      have h' : i < d.getLedCount := by rw [BitVec.lt_def]; omega
      have h'' : i.toNat < l.length := by omega
      refine ⟨l.set i.toNat c, ?_, by simp, by simp [h''], ?_⟩
      · simp [FakeLedManager.setLed, hostAssert, h', bind, Except.bind, h'', pure, Except.pure]
      · intro j _ hj
        rw [List.getElem?_set_ne (by omega)])
    (fun l i c hL h => by
      have h' : ¬ i < d.getLedCount := by rw [BitVec.lt_def]; omega
      simp [FakeLedManager.setLed, hostAssert, h', bind, Except.bind])
    cs (List.replicate d.getLedCount.toNat CRGB.black) 0 (by simp)
  have h0 : (BitVec.ofNat 8 0 : U8) = 0 := rfl
  rw [h0] at key
  rw [e]
  constructor
  · intro h
    obtain ⟨leds, e1, len1, get1, -⟩ := key.1 (by omega) (by omega)
    refine ⟨leds, by rw [e1]; rfl, ?_⟩
    intro k hk
    refine ⟨cs[k], ?_, hcs k hk⟩
    have := get1 k (by omega)
    rw [Nat.zero_add] at this
    exact this
  · intro h
    rw [key.2 (by omega) (by omega) (by omega) (by omega)]
    rfl

end Firefly.Props
