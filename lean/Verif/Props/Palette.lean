import Verif.Lemmas.Palette

/-! # Properties of colour palettes (C43-C48) -/

namespace Firefly.Props
open Firefly Spec

/-- A palette of three colours used in the examples. -/
def rgbPalette : Palette := [⟨0, 255, 255⟩, ⟨96, 200, 255⟩, ⟨160, 255, 100⟩]

/-! ## C43: lookup wraps -/

/-- C43: `GetColor(i)` is entry `i mod size`, for every palette and every byte `i`. -/
theorem getColor_wraps (p : Palette) (hp : 0 < p.length) (i : U8) :
    p.getColor i = .ok (p[i.toNat % p.length]'(Nat.mod_lt _ hp)) :=
  p.getColor_eq hp i

example : rgbPalette.getColor 5 = .ok ⟨160, 255, 100⟩ := by decide

/-- C43: on an empty palette `GetColor` divides by zero. -/
theorem getColor_empty (i : U8) : Palette.getColor [] i = .error .divByZero := rfl

/-! ## C44: the gradient is total for up to 255 colours -/

/-- C44: no undefined behaviour for up to 255 colours, whatever FastLED's functions do. -/
theorem gradient_total (F : FastLED) (p : Palette) (pos : U16) (wrap : Bool)
    (h : p.length ≤ 255) : ∃ c, p.getGradient F pos wrap = .ok c := by
  match p, h with
  | [], _ => exact ⟨_, rfl⟩
  | [c], _ => exact ⟨_, rfl⟩
  | c₁ :: c₂ :: cs, h =>
    obtain ⟨t, -, e⟩ := Palette.getGradient_eq F (c₁ :: c₂ :: cs) pos wrap
      (by simp only [List.length_cons]; omega) h
    exact ⟨_, e⟩

example : rgbPalette.length ≤ 255 := by decide

/-- C44: the empty palette is black and a one-colour palette is constant. -/
theorem gradient_small (F : FastLED) (pos : U16) (wrap : Bool) (c : CHSV) :
    Palette.getGradient F [] pos wrap = .ok ⟨0, 0, 0⟩ ∧
      Palette.getGradient F [c] pos wrap = .ok c := ⟨rfl, rfl⟩

/-- C44, the limit: for palettes of any size the gradient is undefined exactly when the
number of segments is a multiple of 256 (and there are at least two colours). -/
theorem gradient_faults_iff (F : FastLED) (p : Palette) (pos : U16) (wrap : Bool) :
    (∃ f, p.getGradient F pos wrap = .error f) ↔
      2 ≤ p.length ∧ (if wrap then p.length else p.length - 1) % 256 = 0 := by
  match p with
  | [] => simp [Palette.getGradient]
  | [c] => simp [Palette.getGradient]
  | c₁ :: c₂ :: cs =>
    have h2 : 2 ≤ (c₁ :: c₂ :: cs).length := by simp only [List.length_cons]; omega
    rw [Palette.getGradient]
    · generalize (c₁ :: c₂ :: cs : List CHSV) = p at *
      simp only [h2, true_and, bind, Except.bind]
      rw [Palette.getColor_eq _ (by omega), Palette.getColor_eq _ (by omega)]
      have hz : ((if wrap then BitVec.ofNat 8 p.length else BitVec.ofNat 8 (p.length - 1) : U8)
          = 0) ↔ (if wrap then p.length else p.length - 1) % 256 = 0 := by
        rw [← BitVec.toNat_inj]
        cases wrap <;> simp
      generalize (if wrap then BitVec.ofNat 8 p.length else BitVec.ofNat 8 (p.length - 1) : U8)
        = size at *
      by_cases h0 : size = 0
      · rw [if_pos h0]
        exact ⟨fun _ => hz.1 h0, fun _ => ⟨_, rfl⟩⟩
      · rw [if_neg h0]
        refine ⟨fun ⟨f, hf⟩ => ?_, fun h => absurd (hz.2 h) h0⟩
        dsimp only at hf
        split at hf
        · exact nomatch hf
        · exact nomatch hf
    · intro h; cases h
    · intro c h; cases h

example : ∃ f, Palette.getGradient FastLED.reference (List.replicate 256 ⟨1, 2, 3⟩) 5 =
    .error f := (gradient_faults_iff _ _ _ _).2 (by
      rw [List.length_replicate]; exact ⟨by decide, rfl⟩)

/-! ## C45: the gradient hits its colours exactly -/

/-- C45: at position `i · spacing` the gradient shows colour `i` (counted round and round),
for every `i` for which that position exists. -/
theorem gradient_hits_colours (F : FastLED) (p : Palette) (wrap : Bool) (i : Nat) (pos : U16)
    (h2 : 2 ≤ p.length) (h255 : p.length ≤ 255)
    (hpos : pos.toNat = i * spacing p.length wrap) :
    p.getGradient F pos wrap = .ok (p[i % p.length]'(Nat.mod_lt _ (by omega))) := by
  obtain ⟨t, -, e⟩ := Palette.getGradient_eq F p pos wrap h2 h255
  have hs : 0 < spacing p.length wrap := by
    unfold spacing
    apply Nat.div_pos <;> cases wrap <;> simp <;> omega
  have hm : pos.toNat % spacing p.length wrap = 0 := by rw [hpos]; exact Nat.mul_mod_left _ _
  have hd : pos.toNat / spacing p.length wrap = i := by rw [hpos, Nat.mul_div_cancel _ hs]
  rw [e]
  simp only [hm, if_true, hd]
  rfl

/-- C45: every colour has its position, in both modes. -/
theorem every_colour_has_a_position (p : Palette) (wrap : Bool) (h2 : 2 ≤ p.length)
    (h255 : p.length ≤ 255) (i : Nat) (hi : i < p.length) :
    ∃ pos : U16, pos.toNat = i * spacing p.length wrap := by
  have hle : i * spacing p.length wrap ≤ 65535 := by
    unfold spacing
    have hm : i ≤ (if wrap then p.length else p.length - 1) := by cases wrap <;> simp <;> omega
    generalize (if wrap = true then p.length else p.length - 1) = m at *
    calc i * (65535 / m) ≤ m * (65535 / m) := Nat.mul_le_mul_right _ hm
      _ ≤ 65535 := Nat.mul_div_le _ _
  exact ⟨BitVec.ofNat 16 (i * spacing p.length wrap), by rw [BitVec.toNat_ofNat]; omega⟩

example : rgbPalette.getGradient FastLED.reference 43690 = .ok ⟨160, 255, 100⟩ :=
  gradient_hits_colours _ rgbPalette true 2 43690 (by decide) (by decide) (by decide)

/-! ## C46: saturation and value stay between the neighbouring colours -/

/-- C46: with `i` the last colour at or before the position, saturation and value lie between
those of colours `i` and `i + 1` (counted round and round). -/
theorem gradient_saturation_value_between {F : FastLED} (hF : F.Lawful) (p : Palette)
    (pos : U16) (wrap : Bool) (h2 : 2 ≤ p.length) (h255 : p.length ≤ 255) {c : CHSV}
    (hc : p.getGradient F pos wrap = .ok c) :
    let i := pos.toNat / spacing p.length wrap
    let a := p[i % p.length]'(Nat.mod_lt _ (by omega))
    let b := p[(i + 1) % p.length]'(Nat.mod_lt _ (by omega))
    Between a.s.toNat b.s.toNat c.s.toNat ∧ Between a.v.toNat b.v.toNat c.v.toNat := by
  obtain ⟨t, -, e⟩ := Palette.getGradient_eq F p pos wrap h2 h255
  rw [hc] at e
  intro i a b
  change Except.ok c = Except.ok (if pos.toNat % spacing p.length wrap = 0 then a else
    ⟨Palette.lerpHue F a.h b.h t,
      (F.lerp16by16 (a.s.setWidth 16) (b.s.setWidth 16) t).setWidth 8,
      (F.lerp16by16 (a.v.setWidth 16) (b.v.setWidth 16) t).setWidth 8⟩) at e
  generalize a = a, b = b at *
  injection e with e
  split at e
  · subst e
    constructor <;> constructor <;> omega
  · subst e
    exact ⟨setWidth_between hF _ _ _, setWidth_between hF _ _ _⟩

example : rgbPalette.getGradient FastLED.reference 10922 = .ok ⟨47, 228, 255⟩ := by
  decide +kernel

/-! ## C47: the hue takes the shorter way round -/

/-- C47: the hue lies on the shorter way round between the hues of the neighbouring colours,
unless these are exactly 127 apart. -/
theorem gradient_hue_on_shorter_arc {F : FastLED} (hF : F.Lawful) (p : Palette)
    (pos : U16) (wrap : Bool) (h2 : 2 ≤ p.length) (h255 : p.length ≤ 255) {c : CHSV}
    (hc : p.getGradient F pos wrap = .ok c) :
    let i := pos.toNat / spacing p.length wrap
    let a := p[i % p.length]'(Nat.mod_lt _ (by omega))
    let b := p[(i + 1) % p.length]'(Nat.mod_lt _ (by omega))
    a.h.toNat + 127 ≠ b.h.toNat → b.h.toNat + 127 ≠ a.h.toNat →
    OnShorterArc a.h.toNat b.h.toNat c.h.toNat := by
  obtain ⟨t, -, e⟩ := Palette.getGradient_eq F p pos wrap h2 h255
  rw [hc] at e
  intro i a b hne hne'
  change Except.ok c = Except.ok (if pos.toNat % spacing p.length wrap = 0 then a else
    ⟨Palette.lerpHue F a.h b.h t,
      (F.lerp16by16 (a.s.setWidth 16) (b.s.setWidth 16) t).setWidth 8,
      (F.lerp16by16 (a.v.setWidth 16) (b.v.setWidth 16) t).setWidth 8⟩) at e
  generalize a = a, b = b at *
  injection e with e
  split at e
  · subst e
    have ha := c.h.isLt
    have hb := b.h.isLt
    by_cases hle : forward c.h.toNat b.h.toNat ≤ forward b.h.toNat c.h.toNat
    · exact .inl ⟨hle, 0, Nat.zero_le _, rfl⟩
    · refine .inr ⟨by omega, forward b.h.toNat c.h.toNat, Nat.le_refl _, ?_⟩
      unfold forward
      omega
  · subst e
    exact lerpHue_shorter hF _ _ _ hne hne'

/-- The long way round: from hue 10 to hue 200 the gradient passes through hue 0. -/
example : Palette.getGradient FastLED.reference [⟨10, 255, 255⟩, ⟨200, 255, 255⟩] 8191 =
    .ok ⟨249, 255, 255⟩ := by decide +kernel

/-- C47, the exception: between hues exactly 127 apart the gradient takes the way of 128
steps. -/
theorem gradient_hue_tie_takes_longer_arc :
    ∃ (p : Palette) (pos : U16) (c : CHSV),
      p.getGradient FastLED.reference pos = .ok c ∧ p.map (·.h.toNat) = [0, 127] ∧
        ¬ OnShorterArc 0 127 c.h.toNat := by
  refine ⟨[⟨0, 255, 255⟩, ⟨127, 255, 255⟩], 16384, ⟨191, 255, 255⟩, by decide +kernel, rfl, ?_⟩
  have e : (191 : U8).toNat = 191 := rfl
  rintro (⟨-, k, hk, h⟩ | ⟨h, -⟩)
  · simp only [e] at h
    have : forward 0 127 = 127 := rfl
    omega
  · exact absurd h (by decide)

/-! ## C48: a wrapping gradient closes -/

/-- C48: for up to 17 colours the colour at the last position is the one at position 0, where
hue 255 counts as hue 0. -/
theorem gradient_closes {F : FastLED} (hF : F.Lawful) (p : Palette) (h17 : p.length ≤ 17)
    {c d : CHSV} (hc : p.getGradient F 0 = .ok c) (hd : p.getGradient F 65535 = .ok d) :
    d.h.toNat % 255 = c.h.toNat % 255 ∧ d.s = c.s ∧ d.v = c.v := by
  match p, h17 with
  | [], _ => cases hc; cases hd; exact ⟨rfl, rfl, rfl⟩
  | [x], _ => cases hc; cases hd; exact ⟨rfl, rfl, rfl⟩
  | c₁ :: c₂ :: cs, h17 =>
    have h2 : 2 ≤ (c₁ :: c₂ :: cs).length := by simp only [List.length_cons]; omega
    generalize hp : (c₁ :: c₂ :: cs : Palette) = p at *
    have h0 := gradient_hits_colours F p true 0 0 h2 (by omega) (by simp)
    rw [h0] at hc
    obtain ⟨f1, f2⟩ := fraction_small p.length h2 h17
    obtain ⟨t, ht, e⟩ := Palette.getGradient_eq F p 65535 true h2 (by omega)
    rw [hd] at e
    have hsp : spacing p.length true = 65535 / p.length := by simp [spacing]
    have h5 : (65535 : U16).toNat = 65535 := rfl
    rw [hsp, h5] at ht
    simp only [hsp, h5, f2] at e
    have hat : Palette.at p (by omega) p.length = p[0 % p.length]'(Nat.mod_lt _ (by omega)) := by
      simp [Palette.at]
    rw [hat] at e
    injection hc with hc
    rw [hc] at e
    generalize Palette.at p _ (p.length + 1) = b at e
    rw [← ht] at f1
    injection e with e
    have l8 : ∀ x y : U8, ((F.lerp16by16 (x.setWidth 16) (y.setWidth 16) t).setWidth 8 : U8) =
        x := by
      intro x y
      have hx := x.isLt
      have hy := y.isLt
      rw [lerp_small hF _ _ _ (by simp only [BitVec.toNat_setWidth]; omega)
        (by simp only [BitVec.toNat_setWidth]; omega) f1]
      simp
    split at e
    · subst e; exact ⟨rfl, rfl, rfl⟩
    · subst e
      refine ⟨?_, l8 _ _, l8 _ _⟩
      simp only [Palette.lerpHue]
      have ha := c.h.isLt
      have hb := b.h.isLt
      have c255 : (255 : U16).toNat = 255 := rfl
      split
      · rw [l8]
      · rename_i hge
        split
        · rename_i hlt
          have hlt' : c.h.toNat < b.h.toNat := by simpa [BitVec.lt_def] using hlt
          rw [lerp_small hF _ _ _
            (by simp only [BitVec.toNat_add, BitVec.toNat_setWidth, c255]; omega)
            (by simp only [BitVec.toNat_add, BitVec.toNat_setWidth, c255]; omega) f1]
          split
          · simp only [BitVec.add_sub_cancel]
            simp
          · rename_i h
            have : (c.h.setWidth 16 + 255 : U16).toNat = c.h.toNat + 255 := by
              simp only [BitVec.toNat_add, BitVec.toNat_setWidth, c255]; omega
            rw [BitVec.lt_def, this, c255] at h
            rw [BitVec.toNat_setWidth, this]
            omega
        · rename_i hlt
          have hlt' : b.h.toNat ≤ c.h.toNat := by simpa [BitVec.lt_def] using hlt
          rw [lerp_small hF _ _ _
            (by simp only [BitVec.toNat_add, BitVec.toNat_setWidth, c255]; omega)
            (by simp only [BitVec.toNat_add, BitVec.toNat_setWidth, c255]; omega) f1]
          split
          · rename_i h
            rw [BitVec.lt_def, BitVec.toNat_setWidth, c255] at h
            omega
          · simp

example : rgbPalette.getGradient FastLED.reference 0 = .ok ⟨0, 255, 255⟩ ∧
    rgbPalette.getGradient FastLED.reference 65535 = .ok ⟨0, 255, 255⟩ := by decide +kernel

/-- C48, refutation: with 18 colours the gradient need not close (the value differs), and with
two colours it can close with hue 255 instead of hue 0. -/
theorem gradient_need_not_close :
    (∃ (p : Palette) (c d : CHSV), p.length = 18 ∧
      p.getGradient FastLED.reference 0 = .ok c ∧
      p.getGradient FastLED.reference 65535 = .ok d ∧ c.v ≠ d.v) ∧
    (∃ (p : Palette) (c d : CHSV), p.length = 2 ∧
      p.getGradient FastLED.reference 0 = .ok c ∧
      p.getGradient FastLED.reference 65535 = .ok d ∧ c.h = 0 ∧ d.h = 255) :=
  ⟨⟨⟨0, 0, 0⟩ :: List.replicate 17 ⟨0, 0, 255⟩, ⟨0, 0, 0⟩, ⟨0, 0, 1⟩, by decide,
      by decide +kernel, by decide +kernel, by decide⟩,
    ⟨[⟨0, 255, 255⟩, ⟨192, 255, 255⟩], ⟨0, 255, 255⟩, ⟨255, 255, 255⟩, rfl,
      by decide +kernel, by decide +kernel, rfl, rfl⟩⟩

end Firefly.Props
