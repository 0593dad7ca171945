import Verif.Lemmas.Registry

/-! # Properties of the effect registry (C55-C57) -/

namespace Firefly.Props
open Firefly Spec

variable {α : Type}

/-! ## C56: lookup -/

/-- C56: with between 1 and 255 slots registered, looking up any byte on Arduino yields the
slot with that index modulo the number of slots. -/
theorem lookup_total_arduino (l : List (α × U8)) (h1 : 1 ≤ (allSlots l).length)
    (hs : (allSlots l).length ≤ 255) :
    ∃ r, Registry.empty.addAll .arduino l = .ok r ∧
      ∀ i : U8, r.getEffect .arduino i =
        .ok ((allSlots l)[i.toNat % (allSlots l).length]'(Nat.mod_lt _ (by omega))) := by
  obtain ⟨r, e, h⟩ := registered_of_small .arduino l hs
  refine ⟨r, e, fun i => ?_⟩
  have hlen : r.effects.length + r.nonRandom.length = (allSlots l).length := by
    rw [h.effects, h.nonRandom]; simp [allSlots]
  have ht : (BitVec.ofNat 8 (r.effects.length + r.nonRandom.length) : U8).toNat =
      (allSlots l).length := by rw [hlen, BitVec.toNat_ofNat]; omega
  have hne : (BitVec.ofNat 8 (r.effects.length + r.nonRandom.length) : U8) ≠ 0 := by
    intro h0
    rw [h0] at ht
    have : (0 : U8).toNat = 0 := rfl
    omega
  simp only [Registry.getEffect, bind, Except.bind, pure, Except.pure, if_neg hne]
  rw [BitVec.toNat_umod, ht]
  exact getEffect_slots h _ _

/-- C56: in the host build, looking up a byte yields that slot, or aborts exactly when there is
no such slot. -/
theorem lookup_host (l : List (α × U8)) (hs : (allSlots l).length ≤ 255) :
    ∃ r, Registry.empty.addAll .host l = .ok r ∧
      ∀ i : U8, r.getEffect .host i =
        if h : i.toNat < (allSlots l).length then .ok (allSlots l)[i.toNat]
        else .error .assertFail := by
  obtain ⟨r, e, h⟩ := registered_of_small .host l hs
  refine ⟨r, e, fun i => ?_⟩
  have hlen : r.effects.length + r.nonRandom.length = (allSlots l).length := by
    rw [h.effects, h.nonRandom]; simp [allSlots]
  have ht : (BitVec.ofNat 8 (r.effects.length + r.nonRandom.length) : U8).toNat =
      (allSlots l).length := by rw [hlen, BitVec.toNat_ofNat]; omega
  simp only [Registry.getEffect, bind, Except.bind, pure, Except.pure, BitVec.lt_def, ht]
  by_cases hlt : i.toNat < (allSlots l).length
  · rw [dif_pos hlt]
    simp only [hlt, decide_true]
    exact getEffect_slots h _ _
  · rw [dif_neg hlt]
    simp only [hlt, decide_false]
    rfl

/-- With no effect at all the Arduino build divides by zero. -/
theorem lookup_empty (i : U8) :
    (Registry.empty : Registry α).getEffect .arduino i = .error .divByZero := rfl

/-! ## C55: the registry round-trips -/

/-- C55: after any sequence of registrations with at most 255 slots, in either build:
the counts are the sums, an effect occupies as many of the random slots as the sum of its
proportions, and the index reported for the `k`-th distinct effect looks up that effect. -/
theorem registry_roundtrip [BEq α] [LawfulBEq α] (plat : Platform) (l : List (α × U8))
    (hs : (allSlots l).length ≤ 255) :
    ∃ r, Registry.empty.addAll plat l = .ok r ∧
      r.getNumEffects.toNat = (l.map (·.2.toNat)).sum ∧
      r.getNumNonRandomEffects.toNat = (manualOnes l).length ∧
      r.getNumUniqueEffects.toNat = (distinctEffects l).length ∧
      (∀ e, r.effects.count e = ((l.filter (fun x => x.1 == e)).map (·.2.toNat)).sum) ∧
      ∀ (k : U8) (hk : k.toNat < (distinctEffects l).length),
        r.getEffect plat (r.uniqueEffectNumberToIndex k) = .ok (distinctEffects l)[k.toNat] := by
  obtain ⟨r, e, h⟩ := registered_of_small plat l hs
  have hlen : r.effects.length + r.nonRandom.length = (allSlots l).length := by
    rw [h.effects, h.nonRandom]; simp [allSlots]
  have hdl : (distinctEffects l).length = (randomOnes l).length + (manualOnes l).length := by
    simp [distinctEffects]
  obtain ⟨fl, fs⟩ := firstSlots_spec l 0
  have hul : r.uniqueIndices.length = (randomOnes l).length := by rw [h.unique]; simp [fl]
  have hro : (randomOnes l).length ≤ r.effects.length := by
    rw [h.effects]; exact randomOnes_le l
  have hnl : r.nonRandom.length = (manualOnes l).length := by rw [h.nonRandom]; simp
  have getE := h.getEffect hs plat
  refine ⟨r, e, ?_, ?_, ?_, ?_, ?_⟩
  · have : r.effects.length = (l.map (·.2.toNat)).sum := by
      rw [h.effects, randomSlots]
      simp [List.length_flatMap]
    rw [Registry.getNumEffects, BitVec.toNat_ofNat, ← this]
    omega
  · rw [Registry.getNumNonRandomEffects, BitVec.toNat_ofNat, hnl]; omega
  · rw [Registry.getNumUniqueEffects, BitVec.toNat_ofNat, hul, hnl, hdl]; omega
  · intro e
    rw [h.effects]; exact count_randomSlots l e
  · intro k hk
    rw [hdl] at hk
    have hk' := k.isLt
    have hf : ∀ i, (hi : i < (allSlots l).length) →
        r.getEffect plat (BitVec.ofNat 8 i) = .ok (allSlots l)[i] := by
      intro i hi
      have e8 : (BitVec.ofNat 8 i : U8).toNat = i := by rw [BitVec.toNat_ofNat]; omega
      rw [getE _ (by rw [e8]; exact hi)]
      simp [e8]
    rw [Registry.uniqueEffectNumberToIndex]
    split
    · rename_i hlt
      rw [hul] at hlt
      obtain ⟨b1, -, b2⟩ := fs k.toNat (by rw [fl]; exact hlt) hlt
      simp only [Nat.sub_zero] at b1 b2
      have hval : r.uniqueIndices[k.toNat] =
          BitVec.ofNat 8 ((firstSlots l 0)[k.toNat]'(by rw [fl]; exact hlt)) := by
        simp only [h.unique, List.getElem_map]
      rw [hval, hf _ (by simp only [allSlots, List.length_append]; omega)]
      simp only [allSlots, distinctEffects]
      rw [List.getElem_append_left b1, b2, List.getElem_append_left (by simpa using hlt)]
      simp
    · rename_i hge
      rw [hul] at hge ⊢
      rw [hf _ (by omega)]
      simp only [allSlots, distinctEffects]
      rw [List.getElem_append_right (by rw [h.effects]; omega),
        List.getElem_append_right (by simp; omega)]
      simp [h.effects]

/-- C55: with more than 255 slots the host build aborts. -/
theorem too_many_effects_abort (l : List (α × U8)) (hs : 256 ≤ (allSlots l).length) :
    Registry.empty.addAll .host l = .error .assertFail := by
  have : ∀ (l' l : List (α × U8)) (r : Registry α), Registered l r →
      (allSlots l).length ≤ 255 → 256 ≤ (allSlots (l ++ l')).length →
      r.addAll .host l' = .error .assertFail := by
    intro l'
    induction l' with
    | nil => intro l r _ h1 h2; simp at h2; omega
    | cons x l' ih =>
      intro l r h h1 h2
      have e : l ++ x :: l' = (l ++ [x]) ++ l' := by simp
      rw [e] at h2
      by_cases hx : (allSlots (l ++ [x])).length ≤ 255
      · obtain ⟨r₁, e₁, h₁⟩ := h.add .host x hx
        simp only [Registry.addAll, List.foldlM_cons, e₁, bind, Except.bind]
        exact ih _ _ h₁ hx h2
      · have e₁ := h.add_too_many x (by omega)
        simp only [Registry.addAll, List.foldlM_cons, e₁, bind, Except.bind]
  exact this l [] Registry.empty ⟨rfl, rfl, rfl⟩ (by simp [allSlots, randomSlots, manualOnes])
    (by simpa using hs)

/-- A registration in which every situation occurs: repeated, random and manual effects. -/
def exampleRegistration : List (String × U8) :=
  [("rainbow", 3), ("blink", 0), ("spark", 1), ("rainbow", 2), ("dark", 0)]

example : allSlots exampleRegistration =
      ["rainbow", "rainbow", "rainbow", "spark", "rainbow", "rainbow", "blink", "dark"] ∧
    distinctEffects exampleRegistration = ["rainbow", "spark", "rainbow", "blink", "dark"] := by
  decide

/-! ## C57: the shipped registry -/

/-- C57: in either build and whatever the random members of the effects, the registry has 27
random slots and 35 in total; a random choice yields one of the eleven effects meant for it;
the last two slots are the palette display and the dark effect. -/
theorem shipped_registry (plat : Platform) (s : EffectSeeds) :
    ∃ r, shippedRegistry plat s = .ok r ∧
      r.getNumEffects = 27 ∧ r.effects.length + r.nonRandom.length = 35 ∧
      (∀ i : U8, i < r.getNumEffects → ∃ e, r.getEffect plat i = .ok e ∧
        e ∈ [Effect.colorCycle, .contrastBumps, .fire s.fire, .firefly s.firefly, .lightning,
          .pride, .rainbowBumps, .rainbow, .rorschach s.rorschach, .spark, .swingingLights]) ∧
      r.getEffect plat 33 = .ok .displayColorPalette ∧
      r.getEffect plat 34 = .ok .dark := by
  have hle : (allSlots (shippedEffects s)).length ≤ 255 := by
    rw [show (allSlots (shippedEffects s)).length = 35 from rfl]; decide
  obtain ⟨r, e, h⟩ := registered_of_small plat (shippedEffects s) hle
  have hr : (randomSlots (shippedEffects s)).length = 27 := rfl
  have ha : (allSlots (shippedEffects s)).length = 35 := rfl
  have hn : r.getNumEffects = 27 := by rw [Registry.getNumEffects, h.effects]; rfl
  refine ⟨r, e, hn, by rw [h.length, ha], ?_,
    h.getEffect hle plat 33 (by rw [ha]; decide), 
    h.getEffect hle plat 34 (by rw [ha]; decide)⟩
  intro i hi
  rw [hn] at hi
  have hi : i.toNat < 27 := hi
  refine ⟨_, h.getEffect hle plat i (by omega), ?_⟩
  have hm : (allSlots (shippedEffects s))[i.toNat] ∈ randomSlots (shippedEffects s) := by
    simp only [allSlots]
    rw [List.getElem_append_left (by omega)]
    exact List.getElem_mem _
  generalize (allSlots (shippedEffects s))[i.toNat] = x at hm
  simp only [randomSlots, shippedEffects, List.mem_flatMap, List.mem_replicate,
    List.mem_cons, List.not_mem_nil, or_false] at hm ⊢
  obtain ⟨a, ha, hb, rfl⟩ := hm
  rcases ha with rfl | rfl | rfl | rfl | rfl | rfl | rfl | rfl | rfl | rfl | rfl | rfl | rfl |
    rfl | rfl | rfl | rfl | rfl | rfl <;> simp_all

end Firefly.Props
