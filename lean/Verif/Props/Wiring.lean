import Verif.Spec.Wiring
import Verif.Props.Frame

/-! # How a strip is wired does not change the picture (C133) -/

namespace Firefly.Props
open Spec

set_option linter.unusedSimpArgs false in
/-- C133: what an effect computes for a position depends on the strip only by its length and its
flags tiny, bright, circular, mirrored and controller. -/
theorem wiring_irrelevant {s s' : Strip} (h : SameLook s s') (F : FastLED) (plat : Platform)
    (e : Effect) (led : U8) (t : U32) (pkt : Packet) (rng : U16) :
    e.getRGB F plat led t s pkt rng = e.getRGB F plat led t s' pkt rng := by
  unfold Effect.getRGB
  congr 1
  unfold Effect.getColour
  cases e with
  | control | dark | lightning => rfl
  | colorCycle =>
    simp only [Effects.colorCycle, h.count, h.tiny, h.bright,
      h.circular, h.mirrored, h.controller]
  | contrastBumps =>
    simp only [Effects.contrastBumps, Firefly.mirrored, h.count, h.tiny, h.bright,
      h.circular, h.mirrored, h.controller]
  | displayColorPalette =>
    simp only [Effects.displayColorPalette, h.count, h.tiny, h.bright,
      h.circular, h.mirrored, h.controller]
  | fire o =>
    simp only [Effects.fire, Firefly.mirrored, h.count, h.tiny, h.bright,
      h.circular, h.mirrored, h.controller]
  | firefly o =>
    simp only [Effects.firefly, h.count, h.tiny, h.bright,
      h.circular, h.mirrored, h.controller]
  | police =>
    simp only [Effects.police, Firefly.mirrored, h.count, h.tiny, h.bright,
      h.circular, h.mirrored, h.controller]
  | pride =>
    simp only [Effects.pride, Firefly.mirrored, h.count, h.tiny, h.bright,
      h.circular, h.mirrored, h.controller]
  | rainbowBumps =>
    simp only [Effects.rainbowBumps, Firefly.mirrored, h.count, h.tiny, h.bright,
      h.circular, h.mirrored, h.controller]
  | rainbow =>
    simp only [Effects.rainbow, Firefly.mirrored, h.count, h.tiny, h.bright,
      h.circular, h.mirrored, h.controller]
  | rorschach o =>
    simp only [Effects.rorschach, Firefly.mirrored, h.count, h.tiny, h.bright,
      h.circular, h.mirrored, h.controller]
  | simpleBlink o =>
    simp only [Effects.simpleBlink, Firefly.mirrored, h.count, h.tiny, h.bright,
      h.circular, h.mirrored, h.controller]
  | spark =>
    simp only [Effects.spark, Effects.sparkPos, Firefly.mirrored, h.count, h.tiny, h.bright,
      h.circular, h.mirrored, h.controller]
  | stopLight =>
    simp only [Effects.stopLight, Firefly.mirrored, h.count, h.tiny, h.bright,
      h.circular, h.mirrored, h.controller]
  | swingingLights =>
    simp only [Effects.swingingLights, Firefly.mirrored, h.count, h.tiny, h.bright,
      h.circular, h.mirrored, h.controller]

/-- A concrete case: two strips that differ in all three flags of the wiring. -/
example : SameLook (Strip.new 12 [.tiny, .circular])
    (Strip.new 12 [.circular, .dim, .tiny, .reversed, .off]) :=
  ⟨rfl, rfl, rfl, rfl, rfl, rfl⟩

/-- C133: a strip wired from its far end shows the same picture as one wired from its near end: LED
`i` of the one shows what LED `n - 1 - i` of the other shows. -/
theorem reversed_same_picture {s s' : Strip} (h : SameLook s s')
    (hoff : s.flagEnabled .off = s'.flagEnabled .off)
    (hdim : s.flagEnabled .dim = s'.flagEnabled .dim)
    (hrev : s.flagEnabled .reversed = !s'.flagEnabled .reversed) (fr : Frame) (t : U32) (c : CRGB)
    {i : Nat} (hi : i < s.count.toNat) :
    Shows fr s i t c ↔ Shows fr s' (s.count.toNat - 1 - i) t c := by
  have e : (if s.flagEnabled .reversed then s.count.toNat - 1 - i else i) =
      (if s'.flagEnabled .reversed then s'.count.toNat - 1 - (s.count.toNat - 1 - i)
        else s.count.toNat - 1 - i) := by
    have := h.count
    rw [hrev]
    cases s'.flagEnabled .reversed with
    | true => simp only [Bool.not_true, Bool.false_eq_true, if_false, if_true, ← this]; omega
    | false => rfl
  unfold Shows
  rw [hoff, hdim, e]
  simp only [wiring_irrelevant h]

/-- Likewise for two strips wired the same way round. -/
theorem same_wiring_same_picture {s s' : Strip} (h : SameLook s s')
    (hoff : s.flagEnabled .off = s'.flagEnabled .off)
    (hdim : s.flagEnabled .dim = s'.flagEnabled .dim)
    (hrev : s.flagEnabled .reversed = s'.flagEnabled .reversed) (fr : Frame) (t : U32) (c : CRGB)
    (i : Nat) : Shows fr s i t c ↔ Shows fr s' i t c := by
  unfold Shows
  rw [hoff, hdim, hrev, h.count]
  simp only [wiring_irrelevant h]

/-- C133: a strip marked dim shows the picture of the other strip at an eighth of each colour. -/
theorem dim_same_picture {s s' : Strip} (h : SameLook s s')
    (hoff : s.flagEnabled .off = s'.flagEnabled .off)
    (hrev : s.flagEnabled .reversed = s'.flagEnabled .reversed)
    (hd : s.flagEnabled .dim = false) (hd' : s'.flagEnabled .dim = true)
    (fr : Frame) (t : U32) (i : Nat) {c : CRGB} (hs : Shows fr s i t c) :
    Shows fr s' i t ⟨c.r / 8, c.g / 8, c.b / 8⟩ := by
  unfold Shows at hs ⊢
  rw [← hoff, ← hrev, ← h.count]
  simp only [← wiring_irrelevant h]
  by_cases ho : s.flagEnabled .off
  · rw [if_pos ho] at hs ⊢
    subst hs; rfl
  · rw [if_neg ho] at hs ⊢
    obtain ⟨e, rgb, h1, h2, h3⟩ := hs
    refine ⟨e, rgb, h1, h2, ?_⟩
    rw [hd] at h3
    rw [hd', if_pos rfl, h3]
    rfl

/-! ### The shipped devices -/

/-- Whether two LEDs are at the same place on strips that look the same. -/
def twinCheck (d : Device) (k k' : Nat) : Bool :=
  match (ledsInOrder d)[k]?, (ledsInOrder d)[k']? with
  | some (s, i), some (s', i') =>
    decide (s.count = s'.count) && decide (i < s.count.toNat) &&
    [StripFlag.tiny, .bright, .circular, .mirrored, .controller, .off, .dim].all
      (fun f => s.flagEnabled f == s'.flagEnabled f) &&
    decide (i' = if s.flagEnabled .reversed = s'.flagEnabled .reversed then i
      else s.count.toNat - 1 - i)
  | _, _ => false

theorem twins_of_check {d : Device} {k k' : Nat} (h : twinCheck d k k' = true) : Twins d k k' := by
  unfold twinCheck at h
  split at h
  · rename_i s i s' i' hk hk'
    simp only [List.all_cons, List.all_nil, Bool.and_true, Bool.and_eq_true, decide_eq_true_eq,
      beq_iff_eq] at h
    obtain ⟨⟨⟨hc, hi⟩, h1, h2, h3, h4, h5, h6, h7⟩, hi'⟩ := h
    have look : SameLook s s' := ⟨hc, h1, h2, h3, h4, h5⟩
    intro fr t c
    have key : Shows fr s i t c ↔ Shows fr s' i' t c := by
      by_cases hr : s.flagEnabled .reversed = s'.flagEnabled .reversed
      · rw [if_pos hr] at hi'
        rw [hi']
        exact same_wiring_same_picture look h6 h7 hr fr t c i
      · rw [if_neg hr] at hi'
        rw [hi']
        refine reversed_same_picture look h6 h7 ?_ fr t c hi
        revert hr
        cases s.flagEnabled .reversed <;> cases s'.flagEnabled .reversed <;> simp
    constructor
    · rintro ⟨a, b, hab, hs⟩
      rw [hk] at hab
      cases hab
      exact ⟨s', i', hk', key.1 hs⟩
    · rintro ⟨a, b, hab, hs⟩
      rw [hk'] at hab
      cases hab
      exact ⟨s, i, hk, key.2 hs⟩
  · cases h

/-- C133: the matrix panel, wired in one snaking line of eight rows of sixteen LEDs, shows the same
picture in all rows, column by column. -/
theorem matrix_rows_alike : ∃ d, ("half_matrix_panel", d) ∈ Devices.catalogue ∧ totalLeds d = 128 ∧
    ∀ r c, r < 8 → c < 16 → Twins d (snake 16 0 c) (snake 16 r c) := by
  refine ⟨_, .tail _ <| .tail _ <| .tail _ <| .tail _ <| .tail _ <| .tail _ <| .tail _ <| .tail _ <|
    .tail _ <| .tail _ <| .tail _ <| .tail _ <| .tail _ <| .tail _ <| .tail _ <| .head _, by decide,
    fun r c hr hc => twins_of_check ?_⟩
  revert c
  revert r
  decide +kernel

/-- C133: the rope of the backpack, a line folded in the middle, shows the same picture on both
halves side by side. -/
theorem rope_halves_alike : ∃ d, ("backpack_rope", d) ∈ Devices.catalogue ∧ totalLeds d = 192 ∧
    ∀ i, i < 96 → Twins d i (191 - i) := by
  refine ⟨_, .tail _ <| .tail _ <| .tail _ <| .tail _ <| .tail _ <| .tail _ <| .tail _ <| .tail _ <|
    .tail _ <| .tail _ <| .tail _ <| .tail _ <| .tail _ <| .tail _ <| .tail _ <| .tail _ <| .head _,
    by decide, fun i hi => twins_of_check ?_⟩
  revert i
  decide +kernel

/-- C133: the two rings at the ends of the cloak, of eleven LEDs each with 94 in between, are mirror
images of each other. -/
theorem cloak_rings_mirror : ∃ d, ("rainbow_cloak", d) ∈ Devices.catalogue ∧ totalLeds d = 116 ∧
    ∀ i, i < 11 → Twins d i (115 - i) := by
  refine ⟨_, .tail _ <| .tail _ <| .tail _ <| .tail _ <| .tail _ <| .tail _ <| .tail _ <| .head _,
    by decide, fun i hi => twins_of_check ?_⟩
  revert i
  decide +kernel

/-- C133: the second half of Ross's backpack repeats the first. -/
theorem backpack_halves_repeat : ∃ d, ("ross_backpack", d) ∈ Devices.catalogue ∧ totalLeds d = 50 ∧
    ∀ i, i < 25 → Twins d i (i + 25) := by
  refine ⟨_, .tail _ <| .tail _ <| .tail _ <| .tail _ <| .tail _ <| .tail _ <| .tail _ <| .tail _ <|
    .tail _ <| .tail _ <| .tail _ <| .tail _ <| .tail _ <| .tail _ <| .tail _ <| .tail _ <| .tail _ <|
    .tail _ <| .tail _ <| .head _, by decide, fun i hi => twins_of_check ?_⟩
  revert i
  decide +kernel

end Firefly.Props
