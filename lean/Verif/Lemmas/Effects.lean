import Verif.Props.Palette
import Verif.Props.Math
import Verif.Lemmas.Frame
import Verif.Spec.Effects

/-! # Lemmas about effects -/

namespace Firefly
open Spec Props

theorem palettes_length : palettes.length = 22 := rfl

theorem palettes_small : ∀ p ∈ palettes, 1 ≤ p.length ∧ p.length ≤ 6 := by decide

/-- The values of all colours of all palettes are between 150 and 255. -/
theorem palettes_bright : ∀ p ∈ palettes, ∀ c ∈ p, 150 ≤ c.v.toNat := by decide

theorem paletteOf_ok {plat : Platform} {pkt : Packet} (h : NamesPalette plat pkt) :
    ∃ p, paletteOf plat pkt = .ok p ∧ p ∈ palettes := by
  obtain ⟨h1, h2⟩ := h
  have hlt : pkt.data[2].toNat < palettes.length := h2
  refine ⟨palettes[pkt.data[2].toNat], ?_, List.getElem_mem hlt⟩
  have hr : pkt.readPaletteIndexFromSetEffect plat = .ok pkt.data[2] := by
    cases plat with
    | arduino => rfl
    | host =>
      obtain ⟨a, b⟩ := h1 rfl
      simp [Packet.readPaletteIndexFromSetEffect, hostAssert, a, b, bind, Except.bind, pure,
        Except.pure]
  simp only [paletteOf, hr, bind, Except.bind, vecGet, List.getElem?_eq_getElem hlt]

theorem paletteOf_named {plat : Platform} {pkt : Packet} {p : Palette}
    (h : NamesPalette plat pkt) (hp : palettes[pkt.data[2].toNat]? = some p) :
    paletteOf plat pkt = .ok p := by
  obtain ⟨q, hq, -⟩ := paletteOf_ok h
  rw [hq]
  simp only [paletteOf, bind, Except.bind] at hq
  split at hq
  · cases hq
  · rename_i i hi
    have : i = pkt.data[2] := by
      cases plat with
      | arduino => cases hi; rfl
      | host =>
        obtain ⟨a, b⟩ := h.1 rfl
        simp [Packet.readPaletteIndexFromSetEffect, hostAssert, a, b, bind, Except.bind, pure,
          Except.pure] at hi
        exact hi.symm
    subst this
    rw [vecGet, hp] at hq
    exact hq.symm

/-- A palette reached by `paletteOf` is one of the table. -/
theorem paletteOf_mem {plat : Platform} {pkt : Packet} {p : Palette}
    (h : paletteOf plat pkt = .ok p) : p ∈ palettes := by
  simp only [paletteOf, bind, Except.bind] at h
  split at h
  · cases h
  · simp only [vecGet] at h
    split at h
    · cases h; rename_i hs; exact List.mem_of_getElem? hs
    · cases h

theorem getGradient_ok {p : Palette} (h : p ∈ palettes) (F : FastLED) (pos : U16) (wrap : Bool) :
    ∃ c, p.getGradient F pos wrap = .ok c :=
  gradient_total F p pos wrap (by have := palettes_small p h; omega)

theorem getColor_ok {p : Palette} (h : p ∈ palettes) (i : U8) : ∃ c, p.getColor i = .ok c :=
  ⟨_, getColor_wraps p (by have := palettes_small p h; omega) i⟩

/-- If all colours have a value in a range, so has every gradient. -/
theorem gradient_value_range {F : FastLED} (hF : F.Lawful) {p : Palette} {lo hi : Nat}
    (hp : 1 ≤ p.length) (hp' : p.length ≤ 255) (hv : ∀ c ∈ p, lo ≤ c.v.toNat ∧ c.v.toNat ≤ hi)
    {pos : U16} {wrap : Bool} {c : CHSV} (hc : p.getGradient F pos wrap = .ok c) :
    lo ≤ c.v.toNat ∧ c.v.toNat ≤ hi := by
  match p, hp with
  | [x], _ =>
    cases hc; exact hv _ (List.mem_cons_self ..)
  | c₁ :: c₂ :: cs, _ =>
    have h2 : 2 ≤ (c₁ :: c₂ :: cs).length := by simp
    obtain ⟨-, hb⟩ := gradient_saturation_value_between hF _ pos wrap h2 hp' hc
    have ha := hv _ (List.getElem_mem (l := c₁ :: c₂ :: cs)
      (n := (pos.toNat / spacing (c₁ :: c₂ :: cs).length wrap) % (c₁ :: c₂ :: cs).length)
      (Nat.mod_lt _ (by omega)))
    have hb' := hv _ (List.getElem_mem (l := c₁ :: c₂ :: cs)
      (n := (pos.toNat / spacing (c₁ :: c₂ :: cs).length wrap + 1) % (c₁ :: c₂ :: cs).length)
      (Nat.mod_lt _ (by omega)))
    unfold Between at hb
    omega

theorem mirrored_ok {strip : Strip} {led : U8} (hc : strip.count ≠ 0) :
    ∃ l c, mirrored strip led = .ok (l, c) ∧ c ≠ 0 := by
  unfold mirrored
  split
  · rw [mirrorIndex, if_neg hc]
    refine ⟨_, _, rfl, ?_⟩
    intro h
    have e := congrArg BitVec.toNat h
    have hn : strip.count.toNat ≠ 0 := fun h => hc (BitVec.eq_of_toNat_eq h)
    have := strip.count.isLt
    rw [BitVec.toNat_ofNat] at e
    have h0 : (0 : U8).toNat = 0 := rfl
    omega
  · exact ⟨_, _, rfl, hc⟩

theorem divNat_ok {a : Nat} {c : U8} (hc : c ≠ 0) : ∃ q, divNat a c.toNat = .ok q := by
  have : c.toNat ≠ 0 := fun h => hc (BitVec.eq_of_toNat_eq h)
  exact ⟨_, if_neg this⟩

/-- `x` has a value. -/
def Defined (x : Except Fault α) : Prop := ∃ c, x = .ok c

theorem Defined.ok (a : α) : Defined (.ok a : Except Fault α) := ⟨a, rfl⟩

theorem Defined.bind {x : Except Fault α} {f : α → Except Fault β} (hx : Defined x)
    (hf : ∀ a, x = .ok a → Defined (f a)) : Defined (x.bind f) := by
  obtain ⟨a, rfl⟩ := hx
  exact hf a rfl

theorem Defined.map {x : Except Fault α} {f : α → β} (hx : Defined x) : Defined (x.map f) := by
  obtain ⟨a, rfl⟩ := hx
  exact ⟨_, rfl⟩

theorem Defined.ite {p : Prop} [Decidable p] {x y : Except Fault α} (hx : p → Defined x)
    (hy : ¬ p → Defined y) : Defined (if p then x else y) := by
  split
  · exact hx ‹_›
  · exact hy ‹_›

/-! ## Instructions -/

theorem paletteOf_same {plat : Platform} {p q : Packet} (h : SameInstruction p q) :
    paletteOf plat p = paletteOf plat q := by
  obtain ⟨h1, h2, -, -, h3, -⟩ := h
  simp only [paletteOf, Packet.readPaletteIndexFromSetEffect, h1, h2, h3]

theorem getColour_same {F : FastLED} {plat : Platform} {e : Effect} {led : U8} {t : U32}
    {strip : Strip} {p q : Packet} {rng : U16} (h : SameInstruction p q) :
    e.getColour F plat led t strip p rng = e.getColour F plat led t strip q rng := by
  have hp := paletteOf_same (plat := plat) h
  obtain ⟨h1, h2, h0, h3, h4, h5⟩ := h
  cases e <;> simp only [Effect.getColour, Effects.colorCycle, Effects.contrastBumps,
    Effects.control, Effects.displayColorPalette, Effects.firefly, Effects.lightning,
    Effects.rainbowBumps, Effects.rainbow, Effects.rorschach, Effects.simpleBlink,
    Effects.spark, Effects.swingingLights, hp, Packet.readRgbFromSetControl, h1, h2, h3, h4, h5]

/-- The same effect with the random phase of another device. -/
def reseed (s : EffectSeeds) : Effect → Effect
  | .fire _ => .fire s.fire
  | .firefly _ => .firefly s.firefly
  | .rorschach _ => .rorschach s.rorschach
  | e => e

theorem reseed_eq {s : EffectSeeds} {e : Effect} (h : ¬ HasOwnPhase e) : reseed s e = e := by
  cases e <;> first | rfl | exact absurd trivial h

/-- Replace every effect. -/
def Registry.map (f : α → β) (r : Registry α) : Registry β :=
  ⟨r.effects.map f, r.nonRandom.map f, r.uniqueIndices⟩

theorem vecGet_map (f : α → β) (l : List α) (i : Nat) :
    vecGet (l.map f) i = (vecGet l i).map f := by
  simp only [vecGet, List.getElem?_map]
  cases l[i]? <;> rfl

theorem Registry.getEffect_map (f : α → β) (r : Registry α) (plat : Platform) (i : U8) :
    (r.map f).getEffect plat i = (r.getEffect plat i).map f := by
  cases plat
  · simp only [Registry.getEffect, Registry.map, List.length_map, bind, Except.bind, vecGet_map,
      pure, Except.pure]
    cases hostAssert Platform.host
      (decide (i < BitVec.ofNat 8 (r.effects.length + r.nonRandom.length))) with
    | error => rfl
    | ok => simp only []; split <;> rfl
  · simp only [Registry.getEffect, Registry.map, List.length_map, bind, Except.bind, vecGet_map,
      pure, Except.pure]
    by_cases h : (BitVec.ofNat 8 (r.effects.length + r.nonRandom.length) : U8) = 0
    · rw [if_pos h, if_pos h]; rfl
    · rw [if_neg h, if_neg h]; split <;> rfl

theorem Registry.addEffect_map (f : α → β) (r : Registry α) (plat : Platform) (e : α) (q : U8) :
    (r.map f).addEffect plat (f e) q = (r.addEffect plat e q).map (Registry.map f) := by
  by_cases h : 0 < q
  · simp only [Registry.addEffect, Registry.map, h, if_true, List.length_map, List.length_append,
      List.length_replicate, bind, Except.bind, pure, Except.pure]
    cases hostAssert plat _ <;> simp [Except.map, Registry.map]
  · simp only [Registry.addEffect, Registry.map, h, if_false, List.length_map, List.length_append,
      List.length_replicate, bind, Except.bind, pure, Except.pure, List.length_singleton]
    cases hostAssert plat _ <;> simp [Except.map, Registry.map]

theorem Registry.addAll_map (f : α → β) (plat : Platform) (l : List (α × U8)) :
    ∀ r : Registry α, (r.map f).addAll plat (l.map fun x => (f x.1, x.2)) =
      (r.addAll plat l).map (Registry.map f) := by
  induction l with
  | nil => intro r; rfl
  | cons x l ih =>
    intro r
    simp only [Registry.addAll, List.map_cons, List.foldlM_cons, Registry.addEffect_map, bind,
      Except.bind]
    cases r.addEffect plat x.1 x.2 with
    | error => rfl
    | ok r' => exact ih r'

theorem shippedRegistry_reseed (plat : Platform) (s s' : EffectSeeds) :
    shippedRegistry plat s' = (shippedRegistry plat s).map (Registry.map (reseed s')) := by
  have h : shippedEffects s' = (shippedEffects s).map fun x => (reseed s' x.1, x.2) := rfl
  have h0 : (Registry.empty : Registry Effect) = Registry.empty.map (reseed s') := rfl
  rw [shippedRegistry, h, h0, Registry.addAll_map]
  rfl

theorem getCurrentEffect_same {plat : Platform} {s s' : EffectSeeds} {r r' : Registry Effect}
    (hr : shippedRegistry plat s = .ok r) (hr' : shippedRegistry plat s' = .ok r')
    {p q : Packet} (h : SameInstruction p q) {e : Effect}
    (he : getCurrentEffect plat r p = .ok e) (hp : ¬ HasOwnPhase e) :
    getCurrentEffect plat r' q = .ok e := by
  rw [shippedRegistry_reseed plat s s', hr] at hr'
  cases hr'
  obtain ⟨h1, h2, h0, -⟩ := h
  have hi : p.readEffectIndexFromSetEffect plat = q.readEffectIndexFromSetEffect plat := by
    simp only [Packet.readEffectIndexFromSetEffect, h1, h2, h0]
  simp only [getCurrentEffect, h1, hi] at he ⊢
  split
  · rename_i hc; rw [if_pos hc] at he; exact he
  · rename_i hc
    rw [if_neg hc] at he
    simp only [bind, Except.bind, Registry.getEffect_map] at he ⊢
    generalize q.readEffectIndexFromSetEffect plat = a at he
    cases a with
    | error => cases he
    | ok =>
      simp only at he ⊢
      rw [he]
      simp only [Except.map, reseed_eq hp]

/-! ## Bits of the time -/

theorem low_bits (u : U32) :
    ((u &&& 0b100 == 0) = decide (u.toNat % 8 < 4)) ∧
    ((u &&& 0b11 == 0) = decide (u.toNat % 4 = 0)) := by
  have h4 : (u &&& 0b100 : U32).toNat = (u.toNat / 4 % 2) * 4 := by
    rw [BitVec.toNat_and]
    have : (0b100 : U32).toNat = 2 ^ 2 := rfl
    rw [this]
    have h1 : (u.toNat &&& 2 ^ 2) % 2 ^ 3 = u.toNat &&& 2 ^ 2 :=
      Nat.mod_eq_of_lt (Nat.lt_of_le_of_lt Nat.and_le_right (by decide))
    rw [← h1, Nat.and_mod_two_pow]
    have h2 : ∀ x < 8, x &&& 2 ^ 2 % 2 ^ 3 = x / 4 % 2 * 4 := by decide
    rw [h2 _ (Nat.mod_lt _ (by decide))]
    omega
  have h3 : (u &&& 0b11 : U32).toNat = u.toNat % 4 := by
    rw [BitVec.toNat_and]
    exact Nat.and_two_pow_sub_one_eq_mod u.toNat 2
  have h0 : (0 : U32).toNat = 0 := rfl
  constructor
  · rw [Bool.eq_iff_iff, beq_iff_eq, decide_eq_true_iff, ← BitVec.toNat_inj, h4, h0]
    omega
  · rw [Bool.eq_iff_iff, beq_iff_eq, decide_eq_true_iff, ← BitVec.toNat_inj, h3, h0]

/-- The three flags of the stop light in terms of the unit of the cycle. -/
theorem stopLight_phase (t : U32) :
    ((t >>> 11) &&& 0b100 == 0 && decide ((0 : U32) < (t >>> 11) &&& 0b11)) =
      decide (t.toNat / 2048 % 8 < 4 ∧ t.toNat / 2048 % 8 ≠ 0) ∧
    ((t >>> 11) &&& 0b100 == 0 && (t >>> 11) &&& 0b11 == 0) =
      decide (t.toNat / 2048 % 8 = 0) ∧
    ((t >>> 11) &&& 0b100 != 0) = decide (4 ≤ t.toNat / 2048 % 8) := by
  obtain ⟨b1, b2⟩ := low_bits (t >>> 11)
  have hsh : (t >>> 11).toNat = t.toNat / 2048 := by
    rw [BitVec.toNat_ushiftRight, Nat.shiftRight_eq_div_pow]
  have h3 : decide ((0 : U32) < (t >>> 11) &&& 0b11) = !((t >>> 11) &&& 0b11 == 0) := by
    generalize (t >>> 11) &&& 0b11 = x
    rw [Bool.eq_iff_iff]
    simp only [decide_eq_true_eq, Bool.not_eq_true', beq_eq_false_iff_ne]
    constructor
    · intro h h0; rw [h0] at h; exact absurd h (by decide)
    · intro h
      rw [BitVec.lt_def]
      have : x.toNat ≠ (0 : U32).toNat := fun h' => h (BitVec.eq_of_toNat_eq h')
      have h0 : (0 : U32).toNat = 0 := rfl
      omega
  rw [h3, bne, b1, b2, hsh]
  refine ⟨?_, ?_, ?_⟩ <;> rw [Bool.eq_iff_iff] <;> simp <;> omega

theorem mirrored_coordinate {strip : Strip} {led : U8} (hled : led.toNat < strip.count.toNat) :
    ∃ l c, mirrored strip led = .ok (l, c) ∧ l.toNat = coordinate strip led.toNat ∧
      c.toNat = coordinates strip ∧ 0 < c.toNat ∧ l.toNat < c.toNat := by
  unfold mirrored coordinate coordinates
  by_cases h : strip.flagEnabled .mirrored = true
  · obtain ⟨i, c, e, h1, h2, h3⟩ := mirror_distance_to_nearer_end led strip.count (by omega)
    rw [Nat.mod_eq_of_lt hled] at h1
    exact ⟨i, c, by rw [if_pos h, e], by rw [if_pos h, h1], by rw [if_pos h, h2], by omega, h3⟩
  · exact ⟨led, strip.count, by rw [if_neg h], by rw [if_neg h], by rw [if_neg h], by omega, hled⟩

end Firefly
