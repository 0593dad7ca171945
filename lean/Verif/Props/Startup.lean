import Verif.Props.Registry
import Verif.Props.Frame

/-! # Properties of starting and tearing down the LED manager (C83, C84) -/

namespace Firefly.Props
open Firefly Spec

/-! ## C83: the destructor -/

theorem mapM_ok {α β : Type} {f : α → Except Fault β} {g : α → β} {l : List α}
    (h : ∀ x ∈ l, f x = .ok (g x)) : l.mapM f = .ok (l.map g) := by
  induction l with
  | nil => rfl
  | cons x l ih =>
    rw [List.mapM_cons, h x List.mem_cons_self]
    simp only [bind, Except.bind]
    rw [ih fun y hy => h y (List.mem_cons_of_mem _ hy)]
    rfl

theorem freed_of_registered {l : List (α × U8)} {r : Registry α} (h : Registered l r)
    (hs : (allSlots l).length ≤ 255) : r.freed = .ok (distinctEffects l) := by
  obtain ⟨hlen, hk⟩ := firstSlots_spec l 0
  have hrs : (randomSlots l).length ≤ 255 := by
    simp only [allSlots, List.length_append] at hs; omega
  have key : (r.uniqueIndices.mapM fun i => vecGet r.effects i.toNat) =
      .ok ((randomOnes l).map (·.1)) := by
    rw [h.unique, h.effects]
    apply Eq.trans (List.mapM_map)
    have : ∀ (m : List Nat) (o : List α), m.length = o.length →
        (∀ k (hk : k < m.length) (hk' : k < o.length),
          vecGet (randomSlots l) (BitVec.ofNat 8 m[k]).toNat = .ok o[k]) →
        m.mapM ((fun i : U8 => vecGet (randomSlots l) i.toNat) ∘ BitVec.ofNat 8) = .ok o := by
      intro m
      induction m with
      | nil =>
        intro o ho _
        cases o with
        | nil => rfl
        | cons _ _ => cases ho
      | cons x m ih =>
        intro o ho hk
        cases o with
        | nil => cases ho
        | cons y o =>
          rw [List.mapM_cons]
          have h0 := hk 0 (by simp) (by simp)
          simp only [List.getElem_cons_zero] at h0
          simp only [Function.comp, bind, Except.bind, h0]
          have := ih o (by simpa using ho) (fun k h1 h2 => by
            have := hk (k + 1) (by simpa using h1) (by simpa using h2)
            simpa using this)
          rw [this]
          rfl
    apply this
    · rw [hlen, List.length_map]
    · intro k h1 h2
      obtain ⟨h3, _, h4⟩ := hk k h1 (by rw [← hlen]; exact h1)
      simp only [Nat.sub_zero] at h3 h4
      have e : (BitVec.ofNat 8 (firstSlots l 0)[k] : U8).toNat = (firstSlots l 0)[k] := by
        rw [BitVec.toNat_ofNat, Nat.mod_eq_of_lt (by omega)]
      rw [e, vecGet, List.getElem?_eq_getElem h3, h4, List.getElem_map]
  simp only [Registry.freed, key, bind, Except.bind, pure, Except.pure, h.nonRandom]
  rfl

/-- C83: with at most 255 slots, in both builds, the destructor deletes every registered effect
exactly once. -/
theorem destructor_frees_once (plat : Platform) (l : List (α × U8))
    (hs : (allSlots l).length ≤ 255) :
    ∃ r freed, Registry.empty.addAll plat l = .ok r ∧ r.freed = .ok freed ∧
      freed.Perm (l.map (·.1)) := by
  obtain ⟨r, e, h⟩ := registered_of_small plat l hs
  refine ⟨r, _, e, freed_of_registered h hs, ?_⟩
  unfold distinctEffects randomOnes manualOnes
  rw [← List.map_append]
  apply List.Perm.map
  have := List.filter_append_perm (fun x : α × U8 => decide (0 < x.2.toNat)) l
  refine .trans (.of_eq ?_) this
  congr 1
  apply List.filter_congr
  intro x _
  by_cases h : x.2.toNat = 0
  · simp [h]
  · simp [h]; omega

/-- The hypothesis holds of the effects that are shipped. -/
example (s : EffectSeeds) : (allSlots (shippedEffects s)).length ≤ 255 := by
  rw [show (allSlots (shippedEffects s)).length = 35 from rfl]; decide

/-- C83, the exception: on the boards, where nothing checks the number of slots, 257 slots are
enough for an effect to be deleted twice and another not at all. -/
theorem destructor_double_free :
    ∃ r, Registry.empty.addAll .arduino [("a", 255), ("b", 1), ("c", 1)] = .ok r ∧
      r.freed = .ok ["a", "b", "a"] := by
  have h : ((Registry.empty.addAll .arduino [("a", 255), ("b", 1), ("c", 1)]).toOption.any
      fun r => decide (r.freed = .ok ["a", "b", "a"])) = true := by decide +kernel
  cases e : Registry.empty.addAll .arduino [("a", 255), ("b", 1), ("c", 1)] with
  | error _ => rw [e] at h; cases h
  | ok r => rw [e] at h; exact ⟨r, rfl, of_decide_eq_true h⟩

/-! ## C84: the start-up animation -/

theorem foldlM_frames {σ : Type} {P : σ → Prop} {f : List (List CRGB × Nat) × σ → Nat →
    Except Fault (List (List CRGB × Nat) × σ)} {g : Nat → List CRGB × Nat} {l : List Nat}
    (h : ∀ i ∈ l, ∀ fr s, P s → ∃ s', f (fr, s) i = .ok (fr ++ [g i], s') ∧ P s')
    (fr : List (List CRGB × Nat)) {s : σ} (hs : P s) :
    ∃ s', l.foldlM f (fr, s) = .ok (fr ++ l.map g, s') ∧ P s' := by
  induction l generalizing fr s with
  | nil => exact ⟨s, by simp; rfl, hs⟩
  | cons i l ih =>
    obtain ⟨s₁, h1, h2⟩ := h i List.mem_cons_self fr s hs
    obtain ⟨s₂, h3, h4⟩ := ih (fun j hj => h j (List.mem_cons_of_mem _ hj)) (fr ++ [g i]) h2
    refine ⟨s₂, ?_, h4⟩
    rw [List.foldlM_cons, h1]
    simp only [bind, Except.bind]
    rw [h3]
    simp

/-- All LEDs but LED `i` (and, on a device with one LED, the one on the board) are dark. -/
def DarkBut (n i : Nat) (leds : List CRGB) : Prop :=
  leds.length = n + 1 ∧ ∀ j (h : j < leds.length), j ≠ i + 1 → ¬ (n = 1 ∧ j = 0) →
    leds[j] = ⟨0, 0, 0⟩

theorem setLed_onlyLit {device : Device} {n i : Nat} (hn : n = device.getLedCount.toNat)
    (hi : i < n) {leds : List CRGB} (hd : DarkBut n i leds) (c : CRGB) :
    FastLedManager.setLed device leds (BitVec.ofNat 8 i) c = .ok (onlyLit n i c) := by
  obtain ⟨hl, hd⟩ := hd
  have hn8 : n < 256 := by rw [hn]; exact device.getLedCount.isLt
  have e : (BitVec.ofNat 8 i : U8).toNat = i := by
    rw [BitVec.toNat_ofNat, Nat.mod_eq_of_lt (by omega)]
  by_cases h1 : n = 1
  · have hi0 : i = 0 := by omega
    have hc : device.getLedCount = 1 := BitVec.eq_of_toNat_eq (by rw [← hn, h1]; rfl)
    subst hi0
    simp only [FastLedManager.setLed, hc, true_and, bind, Except.bind, pure, Except.pure]
    rw [if_pos (show (0#8 : U8) = 0 from rfl), if_pos (by omega)]
    simp only [List.length_set]
    rw [if_pos (by rw [e]; omega), e]
    congr 1
    match leds, hl with
    | [x, y], _ => subst h1; rfl
    | [], hl | [_], hl | _ :: _ :: _ :: _, hl => simp [h1] at hl
  · have hc : ¬ (device.getLedCount = 1 ∧ BitVec.ofNat 8 i = 0) := fun h => h1 (by
      rw [hn, h.1]; rfl)
    simp only [FastLedManager.setLed, bind, Except.bind, pure, Except.pure, if_neg hc]
    rw [if_pos (by rw [e]; omega), e]
    congr 1
    apply List.ext_getElem
    · simp [onlyLit, hl]
    · intro j h2 h3
      rw [List.length_set] at h2
      simp only [onlyLit, List.getElem_map, List.getElem_range, h1, false_and, or_false]
      by_cases hj : j = i + 1
      · subst hj; rw [List.getElem_set_self, if_pos rfl]
      · rw [List.getElem_set_ne (Ne.symm hj), if_neg hj]
        exact hd j h2 hj (fun h => h1 h.1)

theorem clear_darkBut {n i : Nat} {leds : List CRGB} (h : leds.length = n + 1) :
    DarkBut n i (FastLedManager.clear leds) := by
  refine ⟨by simp [FastLedManager.clear, h], fun j hj _ _ => ?_⟩
  simp [FastLedManager.clear]; rfl

theorem onlyLit_darkBut {n i : Nat} {c : CRGB} : DarkBut n i (onlyLit n i c) := by
  refine ⟨by simp [onlyLit], fun j hj h1 h2 => ?_⟩
  simp only [onlyLit, List.getElem_map, List.getElem_range]
  rw [if_neg]
  rintro (h | h)
  · exact h1 h
  · exact h2 h

/-- C84, from any content of the LED array. -/
theorem startup_frames_from (F : FastLED) (device : Device) (hn : device.getLedCount ≠ 0)
    (leds : List CRGB) (hl : leds.length = device.getLedCount.toNat + 1) :
    ∃ last, FastLedManager.startup F device leds =
      .ok (startupFrames F device.getLedCount.toNat, last) ∧
      last = List.replicate (device.getLedCount.toNat + 1) ⟨0, 0, 0⟩ := by
  have hn0 : device.getLedCount.toNat ≠ 0 := fun h => hn (BitVec.eq_of_toNat_eq h)
  generalize hN : device.getLedCount.toNat = n at *
  have hN := hN.symm
  let P : List CRGB → Prop := fun leds => leds.length = n + 1
  let Q : List CRGB → Prop := DarkBut n (n - 1)
  have hQP : ∀ {l}, Q l → P l := fun h => h.1
  unfold FastLedManager.startup
  simp only [← hN, bind, Except.bind, pure, Except.pure, if_neg hn0]
  have s1 : ∃ s', (List.range n).foldlM (fun (x : List (List CRGB × Nat) × List CRGB) i => do
      let leds ← FastLedManager.setLed device (FastLedManager.clear x.2) (BitVec.ofNat 8 i)
        ⟨128, 128, 128⟩
      return (x.1 ++ [(leds, max (500 / n) (n / 30 + 1))], leds))
      ([], leds) = Except.ok ([] ++ (List.range n).map (fun i =>
        (onlyLit n i ⟨128, 128, 128⟩, max (500 / n) (n / 30 + 1))), s') ∧ P s' := by
    apply foldlM_frames (P := P)
    · intro i hi fr s hs
      refine ⟨onlyLit n i ⟨128, 128, 128⟩, ?_, by simp [P, onlyLit]⟩
      dsimp only
      rw [setLed_onlyLit hN (List.mem_range.1 hi) (clear_darkBut hs)]
      rfl
    · exact hl
  obtain ⟨l1, e1, p1⟩ := s1
  simp only [bind, Except.bind, pure, Except.pure] at e1
  rw [e1]
  dsimp only
  have s2 : ∀ fr, ∃ s', (List.range 256).foldlM (fun (x : List (List CRGB × Nat) × List CRGB) i => do
      let leds ← FastLedManager.setLed device x.2 (BitVec.ofNat 8 (n - 1))
        (F.hsv2rgb ⟨BitVec.ofNat 8 i, 255, 128⟩)
      return (x.1 ++ [(leds, n / 30 + 1)], leds))
      (fr, FastLedManager.clear l1) = Except.ok (fr ++ (List.range 256).map (fun i =>
        (onlyLit n (n - 1) (F.hsv2rgb ⟨BitVec.ofNat 8 i, 255, 128⟩), n / 30 + 1)), s') ∧ Q s' := by
    intro fr
    apply foldlM_frames (P := Q)
    · intro i hi fr s hs
      refine ⟨onlyLit n (n - 1) (F.hsv2rgb ⟨BitVec.ofNat 8 i, 255, 128⟩), ?_, onlyLit_darkBut⟩
      dsimp only
      rw [setLed_onlyLit hN (by omega) hs]
      rfl
    · exact clear_darkBut p1
  obtain ⟨l2, e2, p2⟩ := s2 ([] ++ (List.range n).map (fun i =>
        (onlyLit n i ⟨128, 128, 128⟩, max (500 / n) (n / 30 + 1))))
  simp only [bind, Except.bind, pure, Except.pure] at e2
  rw [e2]
  dsimp only
  have s3 : ∀ fr, ∃ s', (List.range n).foldlM (fun (x : List (List CRGB × Nat) × List CRGB) k => do
      let leds ← FastLedManager.setLed device (FastLedManager.clear x.2)
        (BitVec.ofNat 8 (n - k - 1)) ⟨128, 128, 128⟩
      return (x.1 ++ [(leds, max (500 / n) (n / 30 + 1))], leds))
      (fr, l2) = Except.ok (fr ++ (List.range n).map (fun k =>
        (onlyLit n (n - 1 - k) ⟨128, 128, 128⟩, max (500 / n) (n / 30 + 1))), s') ∧ P s' := by
    intro fr
    apply foldlM_frames (P := P)
    · intro k hk fr s hs
      have := List.mem_range.1 hk
      refine ⟨onlyLit n (n - 1 - k) ⟨128, 128, 128⟩, ?_, by simp [P, onlyLit]⟩
      dsimp only
      rw [show n - k - 1 = n - 1 - k by omega,
        setLed_onlyLit hN (i := n - 1 - k) (by omega) (clear_darkBut hs)]
      rfl
    · exact hQP p2
  obtain ⟨l3, e3, p3⟩ := s3 ([] ++ (List.range n).map (fun i =>
        (onlyLit n i ⟨128, 128, 128⟩, max (500 / n) (n / 30 + 1))) ++
      (List.range 256).map (fun i =>
        (onlyLit n (n - 1) (F.hsv2rgb ⟨BitVec.ofNat 8 i, 255, 128⟩), n / 30 + 1)))
  simp only [bind, Except.bind, pure, Except.pure] at e3
  rw [e3]
  refine ⟨_, rfl, ?_⟩
  show List.replicate l3.length _ = _
  rw [show l3.length = n + 1 from p3]
  rfl

theorem sum_const {α : Type} (l : List α) (c : Nat) : (l.map fun _ => c).sum = l.length * c := by
  induction l with
  | nil => simp
  | cons x l ih => simp only [List.map_cons, List.sum_cons, ih, List.length_cons, Nat.succ_mul]; omega

/-- C84: on every device with at least one LED (and at most 255, in the sense that the byte
`GetLedCount` is not zero) the start-up animation shows exactly the specified frames, never
writes outside the LED buffer, and leaves all LEDs dark. -/
theorem startup_frames (F : FastLED) (device : Device) (hn : device.getLedCount ≠ 0) :
    ∃ last, FastLedManager.startup F device (FastLedManager.newLeds device) =
      .ok (startupFrames F device.getLedCount.toNat, last) ∧
      last = List.replicate (device.getLedCount.toNat + 1) ⟨0, 0, 0⟩ :=
  startup_frames_from F device hn _ (by simp [FastLedManager.newLeds])

/-- C84: how long the animation takes, and that this is less than seven seconds. -/
theorem startup_duration (F : FastLED) {n : Nat} (h1 : 1 ≤ n) (h2 : n ≤ 255) :
    ((startupFrames F n).map (·.2)).sum =
      2 * n * max (500 / n) (n / 30 + 1) + 256 * (n / 30 + 1) ∧
    ((startupFrames F n).map (·.2)).sum < 7000 ∧ (startupFrames F n).length = 2 * n + 256 := by
  have e : ((startupFrames F n).map (·.2)).sum =
      2 * n * max (500 / n) (n / 30 + 1) + 256 * (n / 30 + 1) := by
    unfold startupFrames
    simp only [List.map_append, List.map_map, List.sum_append, Function.comp_def]
    rw [sum_const, sum_const]
    simp only [List.length_range]
    rw [Nat.mul_assoc 2 n]
    generalize n * max (500 / n) (n / 30 + 1) = a
    generalize 256 * (n / 30 + 1) = b
    omega
  refine ⟨e, ?_, ?_⟩
  · rw [e]
    have h3 : n * (500 / n) ≤ 500 := Nat.mul_div_le 500 n
    have h4 : n / 30 ≤ 8 := by omega
    have h5 : n * (n / 30 + 1) ≤ 255 * 9 := Nat.mul_le_mul h2 (by omega)
    rw [Nat.mul_assoc]
    rcases Nat.le_total (500 / n) (n / 30 + 1) with h | h
    · rw [Nat.max_eq_right h]; omega
    · rw [Nat.max_eq_left h]; omega
  · simp [startupFrames]; omega

/-- C84, the exception: a device without LEDs (or with 256) faults at start-up. -/
theorem startup_without_leds (F : FastLED) (device : Device) (hn : device.getLedCount = 0) :
    FastLedManager.startup F device (FastLedManager.newLeds device) = .error .divByZero := by
  simp only [FastLedManager.startup, hn]
  rfl

/-- Every device of the catalogue has LEDs. -/
theorem catalogue_starts : ∀ x ∈ Devices.catalogue, x.2.getLedCount ≠ 0 := by decide

end Firefly.Props
