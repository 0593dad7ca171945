import Verif.Spec.Themes
import Verif.Lemmas.Effects
import Verif.Lemmas.FastLED

/-! # Each palette keeps its colours (C134) -/

namespace Firefly.Props
open Spec

theorem onForwardArc_iff (a b h : Nat) : OnForwardArc a b h ↔ forward a h ≤ forward a b := by
  unfold OnForwardArc forward
  constructor
  · rintro ⟨k, hk, e⟩; omega
  · intro hle
    exact ⟨_, hle, by omega⟩

instance (a b h : Nat) : Decidable (OnForwardArc a b h) :=
  decidable_of_iff _ (onForwardArc_iff a b h).symm

instance (a b h : Nat) : Decidable (OnShorterArc a b h) :=
  inferInstanceAs (Decidable (_ ∨ _))

/-- What is to be checked of two neighbouring colours of a palette. -/
def neighboursFit (th : Theme) (a b : CHSV) : Bool :=
  decide (a.h.toNat + 127 ≠ b.h.toNat) && decide (b.h.toNat + 127 ≠ a.h.toNat) &&
  decide (th.saturations.1 ≤ min a.s.toNat b.s.toNat) &&
  decide (max a.s.toNat b.s.toNat ≤ th.saturations.2) &&
  (List.range 256).all fun h =>
    !decide (OnShorterArc a.h.toNat b.h.toNat h) || decide (OnForwardArc th.hues.1 th.hues.2 h)

def paletteFits (th : Theme) (p : Palette) : Bool :=
  decide (1 ≤ p.length ∧ p.length ≤ 255) &&
  (List.range p.length).all fun i =>
    match p[i]?, p[(i + 1) % p.length]? with
    | some a, some b => neighboursFit th a b
    | _, _ => false

theorem all_fit : (List.range 22).all (fun k =>
    match themes[k]?, palettes[k]? with
    | some th, some p => paletteFits th p
    | _, _ => false) = true := by decide +kernel

theorem neighbours_of_fits {th : Theme} {p : Palette} (h : paletteFits th p = true) (i : Nat)
    (hi : i < p.length) :
    neighboursFit th p[i] (p[(i + 1) % p.length]'(Nat.mod_lt _ (by omega))) = true := by
  unfold paletteFits at h
  simp only [Bool.and_eq_true, List.all_eq_true, List.mem_range] at h
  have := h.2 i hi
  rw [List.getElem?_eq_getElem hi, List.getElem?_eq_getElem (Nat.mod_lt _ (by omega))] at this
  exact this

theorem fits_of_neighbours {th : Theme} {a b c : CHSV} (h : neighboursFit th a b = true)
    (hs : Between a.s.toNat b.s.toNat c.s.toNat)
    (hh : a.h.toNat + 127 ≠ b.h.toNat → b.h.toNat + 127 ≠ a.h.toNat →
      OnShorterArc a.h.toNat b.h.toNat c.h.toNat) : th.Fits c := by
  unfold neighboursFit at h
  simp only [Bool.and_eq_true, decide_eq_true_eq, List.all_eq_true, List.mem_range,
    Bool.or_eq_true, Bool.not_eq_true', decide_eq_false_iff_not] at h
  obtain ⟨⟨⟨⟨h1, h2⟩, h3⟩, h4⟩, h5⟩ := h
  unfold Between at hs
  refine ⟨?_, by omega, by omega⟩
  rcases h5 c.h.toNat c.h.isLt with h | h
  · exact absurd (hh h1 h2) h
  · exact h

theorem colour_fits {th : Theme} {p : Palette} (h : paletteFits th p = true) {c : CHSV}
    (hc : c ∈ p) : th.Fits c := by
  obtain ⟨i, hi, rfl⟩ := List.getElem_of_mem hc
  refine fits_of_neighbours (neighbours_of_fits h i hi) ?_ fun _ _ => ?_
  · unfold Between; omega
  · rcases Nat.le_total (forward p[i].h.toNat
      (p[(i + 1) % p.length]'(Nat.mod_lt _ (by omega))).h.toNat) (forward
      (p[(i + 1) % p.length]'(Nat.mod_lt _ (by omega))).h.toNat p[i].h.toNat) with hle | hle
    · exact .inl ⟨hle, 0, by omega, by simp⟩
    · refine .inr ⟨hle, _, Nat.le_refl _, ?_⟩
      unfold forward; omega

theorem gradient_fits {F : FastLED} (hF : F.Lawful) {th : Theme} {p : Palette}
    (h : paletteFits th p = true) {pos : U16} {wrap : Bool} {c : CHSV}
    (hc : p.getGradient F pos wrap = .ok c) : th.Fits c := by
  have hlen : 1 ≤ p.length ∧ p.length ≤ 255 := by
    unfold paletteFits at h
    simp only [Bool.and_eq_true, decide_eq_true_eq] at h
    exact h.1
  by_cases h2 : 2 ≤ p.length
  · obtain ⟨hs, -⟩ := gradient_saturation_value_between hF p pos wrap h2 hlen.2 hc
    have hh := gradient_hue_on_shorter_arc hF p pos wrap h2 hlen.2 hc
    have hn := neighbours_of_fits h _
      (Nat.mod_lt (pos.toNat / spacing p.length wrap) (by omega : 0 < p.length))
    have e : (pos.toNat / spacing p.length wrap % p.length + 1) % p.length =
        (pos.toNat / spacing p.length wrap + 1) % p.length := by
      rw [Nat.mod_add_mod]
    simp only [e] at hn
    exact fits_of_neighbours hn hs hh
  · match p, hlen with
    | [x], _ => cases hc; exact colour_fits h (.head _)
    | _ :: _ :: _, _ => simp at h2

/-- Where the effects of the palette take their colours from. -/
theorem shows_palette_colour {F : FastLED} {plat : Platform} {e : Effect} (he : ShowsPalette e)
    {led : U8} {t : U32} {strip : Strip} {pkt : Packet} {rng rng' : U16} {c : Colour} {p : Palette}
    (hp : paletteOf plat pkt = .ok p)
    (hc : e.getColour F plat led t strip pkt rng = .ok (c, rng')) :
    c = .rgb ⟨0, 0, 0⟩ ∨ ∃ (col : CHSV) (v : U8), c = .hsv { col with v := v } ∧
      ((∃ pos wrap, p.getGradient F pos wrap = .ok col) ∨ p.getColor 0 = .ok col) := by
  have key : ∀ {r : Except Fault Colour}, r.map (·, rng) = .ok (c, rng') → r = .ok c := by
    intro r h
    cases r with
    | error _ => cases h
    | ok x => cases h; rfl
  unfold Effect.getColour at hc
  cases e <;> first | exact absurd he id | skip
  all_goals
    try replace hc := key hc
    simp only [Effects.colorCycle, Effects.contrastBumps, Effects.displayColorPalette,
      Effects.firefly, Effects.lightning, Effects.rainbowBumps, Effects.rainbow, Effects.rorschach,
      Effects.simpleBlink, Effects.spark, hp, bind, Except.bind, pure, Except.pure,
      Colour.black] at hc
    repeat' split at hc
    all_goals first
      | (cases hc; done)
      | (cases hc; exact .inl rfl)
      | (cases hc; exact .inr ⟨_, _, rfl, .inr (by assumption)⟩)
      | (cases hc; exact .inr ⟨_, _, rfl, .inl ⟨_, _, by assumption⟩⟩)

/-- C134: whatever the time, the LED and the strip, every effect that shows colours of the palette
shows only black and colours that fit the theme of the palette (in any brightness). -/
theorem palette_keeps_theme {F : FastLED} (hF : F.Lawful) {plat : Platform} {e : Effect}
    (he : ShowsPalette e) {led : U8} {t : U32} {strip : Strip} {pkt : Packet} {rng rng' : U16}
    {rgb : CRGB} (hn : NamesPalette plat pkt) {th : Theme}
    (hth : themes[pkt.data[2].toNat]? = some th)
    (hc : e.getRGB F plat led t strip pkt rng = .ok (rgb, rng')) :
    rgb = ⟨0, 0, 0⟩ ∨ ∃ c : CHSV, rgb = F.hsv2rgb c ∧ th.Fits c := by
  have hk : pkt.data[2].toNat < 22 := hn.2
  have hfit := all_fit
  rw [List.all_eq_true] at hfit
  have hfit := hfit _ (List.mem_range.2 hk)
  rw [hth] at hfit
  obtain ⟨p, hp⟩ : ∃ p, palettes[pkt.data[2].toNat]? = some p :=
    ⟨_, List.getElem?_eq_getElem (by rw [palettes_length]; exact hk)⟩
  rw [hp] at hfit
  have hfit : paletteFits th p = true := hfit
  unfold Effect.getRGB at hc
  cases hcol : e.getColour F plat led t strip pkt rng with
  | error _ => rw [hcol] at hc; cases hc
  | ok r =>
    obtain ⟨c, r'⟩ := r
    rw [hcol] at hc
    cases hc
    rcases shows_palette_colour he (paletteOf_named hn hp) hcol with h | ⟨col, v, h, h'⟩
    · subst h; exact .inl rfl
    · subst h
      refine .inr ⟨_, rfl, ?_⟩
      have : th.Fits col := by
        rcases h' with ⟨_, _, h'⟩ | h'
        · exact gradient_fits hF hfit h'
        · have hl : 0 < p.length := by
            have := palettes_small p (List.mem_of_getElem? hp); omega
          rw [getColor_wraps p hl] at h'
          cases h'
          exact colour_fits hfit (List.getElem_mem _)
      exact this

/-- A concrete case: the warm palette, number 9, with the spark effect. -/
example : NamesPalette .arduino ⟨5, .setEffect, 3, (Vector.replicate 58 9)⟩ ∧
    themes[9]?.map (·.name) = some "warm: purple by pink to red" ∧
    ShowsPalette .spark ∧ (Effect.spark.getRGB FastLED.reference .arduino 3 1000 ⟨30, 0⟩
      ⟨5, .setEffect, 3, (Vector.replicate 58 9)⟩ 0).toOption.isSome := by
  refine ⟨⟨by decide, by decide⟩, by decide, trivial, by decide +kernel⟩

/-- A set of numbers as the bits of one number. -/
def bitSet (l : List Nat) : Nat := l.foldl (fun m h => m ||| 1 <<< h) 0

theorem mem_of_bitSet {l : List Nat} {h : Nat} (hb : (bitSet l).testBit h = true) : h ∈ l := by
  have key : ∀ (l : List Nat) (m : Nat), (l.foldl (fun m h => m ||| 1 <<< h) m).testBit h = true →
      m.testBit h = true ∨ h ∈ l := by
    intro l
    induction l with
    | nil => exact fun m hm => .inl hm
    | cons x l ih =>
      intro m hm
      rcases ih _ hm with h' | h'
      · rw [Nat.testBit_or, Bool.or_eq_true] at h'
        rcases h' with h' | h'
        · exact .inl h'
        · rw [Nat.one_shiftLeft, Nat.testBit_two_pow, decide_eq_true_eq] at h'
          exact .inr (h' ▸ .head _)
      · exact .inr (.tail _ h')
  rcases key l 0 hb with h' | h'
  · simp at h'
  · exact h'

theorem rainbow_hues : [8, 13, 18, 21].all (fun k =>
    bitSet ((List.range 656).filterMap fun x =>
      ((palettes.getD k []).getGradient FastLED.reference (BitVec.ofNat 16 (100 * x))).toOption.map
        (·.h.toNat % 255)) == 2 ^ 255 - 1) = true := by decide +kernel

theorem ok_of_toOption {x : Except Fault α} {c : α} (h : x.toOption = some c) : x = .ok c := by
  cases x with
  | error _ => cases h
  | ok _ => cases h; rfl

/-- C134: the palettes with all hues do have each of the 255 hues of the wheel. -/
theorem rainbows_complete {k : Nat} {th : Theme} (hth : themes[k]? = some th)
    (hall : th.hues = allHues) {h : Nat} (hh : h < 255) :
    ∃ p pos c, palettes[k]? = some p ∧ p.getGradient FastLED.reference pos = .ok c ∧
      c.h.toNat % 255 = h := by
  have hlt : k < 22 := (List.getElem?_eq_some_iff.1 hth).1
  have hk : k ∈ [8, 13, 18, 21] := by
    have hd : ∀ k, k < 22 → (themes[k]?.map (·.hues)) = some allHues → k ∈ [8, 13, 18, 21] := by
      decide
    exact hd k hlt (by rw [hth, ← hall]; rfl)
  have hp : palettes[k]? = some (palettes.getD k []) := by
    have : k < palettes.length := by rw [palettes_length]; exact hlt
    rw [List.getD_eq_getElem?_getD, List.getElem?_eq_getElem this]; rfl
  have := rainbow_hues
  rw [List.all_eq_true] at this
  have := this k hk
  rw [beq_iff_eq] at this
  have := mem_of_bitSet (h := h) (by
    rw [this, Nat.testBit_two_pow_sub_one, decide_eq_true_eq]; exact hh)
  simp only [List.mem_filterMap, List.mem_range, Option.map_eq_some_iff] at this
  obtain ⟨x, _, c, hc, e⟩ := this
  exact ⟨_, BitVec.ofNat 16 (100 * x), c, hp, ok_of_toOption hc, e⟩

theorem all_tight : (List.range 22).all (fun k =>
    match themes[k]?, palettes[k]? with
    | some th, some p =>
      let cs := (List.range p.length).filterMap fun i =>
        (p.getGradient FastLED.reference (BitVec.ofNat 16 (i * spacing p.length true))).toOption
      (decide (th.hues = allHues) || cs.any (fun c => c.h.toNat % 255 == th.hues.1 % 255)) &&
      (decide (th.hues = allHues) || cs.any (fun c => c.h.toNat % 255 == th.hues.2 % 255)) &&
      cs.any (fun c => c.s.toNat == th.saturations.1) &&
      cs.any (fun c => c.s.toNat == th.saturations.2)
    | _, _ => false) = true := by decide +kernel

/-- C134: no theme is too wide: each palette has colours with the first and with the last hue of its
theme, and with the lowest and with the highest saturation. -/
theorem theme_tight {k : Nat} (hk : k < 22) :
    ∃ th p, themes[k]? = some th ∧ palettes[k]? = some p ∧
      (∃ pos c, p.getGradient FastLED.reference pos = .ok c ∧
        c.h.toNat % 255 = th.hues.1 % 255) ∧
      (∃ pos c, p.getGradient FastLED.reference pos = .ok c ∧
        c.h.toNat % 255 = th.hues.2 % 255) ∧
      (∃ pos c, p.getGradient FastLED.reference pos = .ok c ∧ c.s.toNat = th.saturations.1) ∧
      (∃ pos c, p.getGradient FastLED.reference pos = .ok c ∧ c.s.toNat = th.saturations.2) := by
  have h := all_tight
  rw [List.all_eq_true] at h
  have h := h k (List.mem_range.2 hk)
  split at h
  · rename_i th p hth hp
    simp only [Bool.and_eq_true, Bool.or_eq_true, decide_eq_true_eq, List.any_eq_true,
      List.mem_filterMap, beq_iff_eq] at h
    obtain ⟨⟨⟨h1, h2⟩, c₃, ⟨_, _, h3⟩, h3'⟩, c₄, ⟨_, _, h4⟩, h4'⟩ := h
    have hue : ∀ x : Nat, (th.hues = allHues ∨ ∃ c : CHSV, (∃ a, a ∈ List.range p.length ∧
        (p.getGradient FastLED.reference
          (BitVec.ofNat 16 (a * spacing p.length true))).toOption = some c) ∧
        c.h.toNat % 255 = x % 255) →
        ∃ pos c, p.getGradient FastLED.reference pos = .ok c ∧ c.h.toNat % 255 = x % 255 := by
      rintro x (ha | ⟨c, ⟨_, _, hc⟩, e⟩)
      · obtain ⟨p', pos, c, hp', hc, e⟩ :=
          rainbows_complete hth ha (Nat.mod_lt x (by decide : 255 > 0))
        rw [hp] at hp'
        cases hp'
        exact ⟨pos, c, hc, e⟩
      · exact ⟨_, c, ok_of_toOption hc, e⟩
    exact ⟨th, p, hth, hp, hue _ h1, hue _ h2, ⟨_, c₃, ok_of_toOption h3, h3'⟩,
      ⟨_, c₄, ok_of_toOption h4, h4'⟩⟩
  · cases h

/-- C134: the palettes that are not rainbows, by name: what each of them never shows.  The warm
palette has no hue from orange to blue, the cool one none from pink to yellow, the fire palette
none from green to pink. -/
theorem theme_excludes :
    (∀ c, (themes.getD 9 ⟨"", (0, 0), (0, 0)⟩).Fits c →
      ¬ (orange ≤ c.h.toNat ∧ c.h.toNat ≤ blue)) ∧
    (∀ c, (themes.getD 10 ⟨"", (0, 0), (0, 0)⟩).Fits c →
      green ≤ c.h.toNat ∧ c.h.toNat ≤ blue) ∧
    (∀ c, (themes.getD 17 ⟨"", (0, 0), (0, 0)⟩).Fits c →
      c.h.toNat ≤ yellow ∨ c.h.toNat = 255) := by
  have h : (List.range 256).all (fun h =>
      (!decide (OnForwardArc 192 0 h) || decide (¬ (32 ≤ h ∧ h ≤ 160))) &&
      (!decide (OnForwardArc 96 160 h) || decide (96 ≤ h ∧ h ≤ 160)) &&
      (!decide (OnForwardArc 0 64 h) || decide (h ≤ 64 ∨ h = 255))) = true := by decide +kernel
  simp only [List.all_eq_true, List.mem_range, Bool.and_eq_true, Bool.or_eq_true,
    Bool.not_eq_true', decide_eq_false_iff_not, decide_eq_true_eq] at h
  refine ⟨fun c hc => ?_, fun c hc => ?_, fun c hc => ?_⟩
  · exact ((h _ c.h.isLt).1.1).resolve_left fun hh => hh hc.1
  · exact ((h _ c.h.isLt).1.2).resolve_left fun hh => hh hc.1
  · exact ((h _ c.h.isLt).2).resolve_left fun hh => hh hc.1

end Firefly.Props
