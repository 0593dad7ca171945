import Verif.Lemmas.Frame

/-! # Properties of device descriptions (C51, C52) -/

namespace Firefly.Props
open Firefly Spec

/-! ## C51: strip flags -/

/-- C51: a flag is enabled iff it is one of those given at construction. -/
theorem flag_enabled_iff_listed (count : U8) (flags : List StripFlag) (f : StripFlag) :
    (Strip.new count flags).flagEnabled f = true ↔ f ∈ flags := by
  have h : ∀ (flags : List StripFlag) (acc : U8),
      (flags.foldl (fun acc f => acc ||| f.value) acc &&& f.value = f.value) ↔
        (acc &&& f.value = f.value ∨ f ∈ flags) := by
    intro flags
    induction flags with
    | nil => simp
    | cons g gs ih =>
      intro acc
      rw [List.foldl_cons, ih, flag_step, List.mem_cons, or_assoc]
  have h0 : ¬ ((0 : U8) &&& f.value = f.value) := by cases f <;> decide
  simp only [Strip.flagEnabled, Strip.new, beq_iff_eq, h, h0, false_or]

/-- C51: construction keeps the number of LEDs. -/
theorem strip_count (count : U8) (flags : List StripFlag) :
    (Strip.new count flags).count = count := rfl

example : (Strip.new 24 [.tiny, .mirrored, .tiny]).flagEnabled .mirrored = true ∧
    (Strip.new 24 [.tiny, .mirrored, .tiny]).flagEnabled .circular = false := by decide

/-! ## C52: the LED count -/

/-- C52: in general the reported count is the sum modulo 256. -/
theorem ledCount_mod (d : Device) : d.getLedCount.toNat = totalLeds d % 256 := ledCount_toNat d

/-- C52: the reported count is the sum of the strips exactly for devices with at most 255
LEDs. -/
theorem ledCount_is_sum_iff (d : Device) :
    d.getLedCount.toNat = totalLeds d ↔ totalLeds d ≤ 255 := by
  rw [ledCount_mod]
  omega

/-- C52: every device in the catalogue limits its LEDs to 2350 mA (2.4 A less 50 mA for the
board itself). -/
theorem catalogue_current : ∀ x ∈ Devices.catalogue, x.2.milliamps.toNat = 2350 := by
  decide +kernel

/-- C52: a simple device of `count` LEDs is one strip of `count` LEDs with the given flags. -/
theorem simple_device (count : U8) (flags : List StripFlag) :
    ∃ strip, (Devices.simple count flags).strips = [strip] ∧ strip.count = count ∧
      (∀ f, strip.flagEnabled f = true ↔ f ∈ flags) ∧
      totalLeds (Devices.simple count flags) = count.toNat :=
  ⟨_, rfl, rfl, flag_enabled_iff_listed count flags, by
    simp [totalLeds, Devices.simple, strip_count]⟩

/-- C52: every device in the catalogue is small enough. -/
theorem catalogue_ledCount : ∀ x ∈ Devices.catalogue,
    x.2.getLedCount.toNat = totalLeds x.2 ∧ 0 < totalLeds x.2 := by
  decide

example : totalLeds ⟨2350, [Strip.new 96 [.dim], Strip.new 96 [.dim, .reversed]]⟩ = 192 := rfl

/-- C52, refutation: two strips of 128 LEDs are reported as no LEDs. -/
theorem ledCount_can_be_wrong : ∃ d : Device, totalLeds d = 256 ∧ d.getLedCount = 0 :=
  ⟨⟨2350, [Strip.new 128 [], Strip.new 128 []]⟩, rfl, rfl⟩

end Firefly.Props
