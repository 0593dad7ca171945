import Verif.Lemmas.TrellisExample
import Verif.Props.Remote

/-! # Properties of the key pad (C124–C127) -/

namespace Firefly.Props
open Spec Trellis

variable {env : Trellis.Env} {seeds : EffectSeeds}

/-! ## The key pad takes part in the network as any other device -/

theorem keypad_init_run {t₀ rand z z' rng} :
    ∃ h, Firefly.Run .arduino t₀ h (Trellis.init env t₀ rand z z' rng).node :=
  ⟨_, rand, z, z', .cons (.setNumPalettes t₀ _) (.cons (.setNumEffects t₀ _) .nil rfl) rfl⟩

/-- C124: seen from the radio, every run of the key pad's program is a run of the state machine
from power-up, so that C01–C40 apply to it. -/
theorem keypad_is_a_node (hreg : shippedRegistry .arduino seeds = .ok env.registry)
    {t₀ rand z z' rng h s} (r : Trellis.Run env (Trellis.init env t₀ rand z z' rng) h s) :
    ∃ h', Firefly.Run .arduino t₀ h' s.node := by
  induction r with
  | nil => exact keypad_init_run
  | @cons h s s' inp _ hl ih =>
    obtain ⟨h', rd, j, j', x⟩ := ih
    have wf := Run.wf ⟨rd, j, j', x⟩
    obtain ⟨node, ht, wf', _, _, p, r, rfl⟩ := Trellis.loop_ok hreg wf hl
    obtain ⟨h'', x', _⟩ := x.tick ht
    obtain ⟨_, _, h₃, x''⟩ := foldlM_handle hreg inp.events (s := { s with node := node }) wf'
    exact ⟨_, rd, j, j', exec_append x' x''⟩

/-! ## C124: pages -/

theorem offers_result {s : Trellis.State} {e : Trellis.Event} (hp : s.palettePage.toNat < 2)
    (he : s.effectPage.toNat < 2) : offers (result env s e) = (offers s).after e := by
  have two : ∀ p : U8, p.toNat < 2 → p = 0 ∨ p = 1 := by
    intro p hp
    have : ∀ k : Fin 2, BitVec.ofNat 8 k.val = (0 : U8) ∨ BitVec.ofNat 8 k.val = (1 : U8) := by decide
    have := this ⟨p.toNat, hp⟩
    rwa [BitVec.ofNat_toNat, BitVec.setWidth_eq] at this
  obtain ⟨key, rising, now, later⟩ := e
  have h1 := two _ hp
  have h2 := two _ he
  cases rising with
  | false =>
    simp only [result, Chooser.after, Bool.false_eq_true, if_false]
    unfold release
    repeat' split
    all_goals rfl
  | true =>
    simp only [result, if_true, offers]
    obtain ⟨k, hk⟩ := key
    match k, hk with
    | 12, _ =>
      rcases h1 with h1 | h1 <;> rcases h2 with h2 | h2 <;> cases hm : s.mode <;>
        simp [Chooser.after, h1, h2, prevOf]
    | 13, _ => cases hm : s.mode <;> simp [Chooser.after]
    | 14, _ => cases hm : s.mode <;> simp [Chooser.after]
    | 15, _ =>
      rcases h1 with h1 | h1 <;> rcases h2 with h2 | h2 <;> cases hm : s.mode <;>
        simp [Chooser.after, h1, h2, nextOf]
    | 0, _ | 1, _ | 2, _ | 3, _ | 4, _ | 5, _ | 6, _ | 7, _ | 8, _ | 9, _ | 10, _ | 11, _ =>
      cases hm : s.mode <;> simp [Chooser.after]
    | k + 16, h => exact absurd h (by omega)

theorem after_lt {c : Chooser} (e : Trellis.Event) (hp : c.palettePage < 2) (he : c.effectPage < 2) :
    (c.after e).palettePage < 2 ∧ (c.after e).effectPage < 2 := by
  unfold Chooser.after prevOf nextOf
  repeat' split
  all_goals first
    | exact ⟨hp, he⟩
    | (dsimp only; constructor <;> omega)

theorem offers_foldl (l : List Trellis.Event) {s : Trellis.State} (hp : s.palettePage.toNat < 2)
    (he : s.effectPage.toNat < 2) :
    offers (l.foldl (result env) s) = l.foldl Chooser.after (offers s) ∧
      (l.foldl (result env) s).palettePage.toNat < 2 ∧
      (l.foldl (result env) s).effectPage.toNat < 2 := by
  induction l generalizing s with
  | nil => exact ⟨rfl, hp, he⟩
  | cons e l ih =>
    have h1 := offers_result (env := env) (e := e) hp he
    have h2 := after_lt (c := offers s) e hp he
    rw [← h1] at h2
    obtain ⟨h3, h4⟩ := ih h2.1 h2.2
    refine ⟨?_, h4⟩
    rw [List.foldl_cons, List.foldl_cons, h3, h1]

theorem keypad_pages_lt (hreg : shippedRegistry .arduino seeds = .ok env.registry)
    {t₀ rand z z' rng h s} (r : Trellis.Run env (Trellis.init env t₀ rand z z' rng) h s) :
    offers s = (keyEvents h).foldl Chooser.after ⟨.color, 0, 0⟩ ∧
      s.palettePage.toNat < 2 ∧ s.effectPage.toNat < 2 := by
  induction r with
  | nil => exact ⟨rfl, (by decide : (0 : U8).toNat < 2), (by decide : (0 : U8).toNat < 2)⟩
  | @cons h s s' inp r hl ih =>
    obtain ⟨h', x⟩ := keypad_is_a_node hreg r
    obtain ⟨node, ht, _, _, _, p, rg, rfl⟩ := Trellis.loop_ok hreg x.wf hl
    obtain ⟨h1, h2⟩ := offers_foldl (env := env) inp.events (s := { s with node := node }) ih.2.1 ih.2.2
    refine ⟨?_, h2⟩
    have e : keyEvents ((s, inp, { handled env inp s node with pixels := p, rng := rg }) :: h) =
        keyEvents h ++ inp.events := by
      simp [keyEvents]
    rw [e, List.foldl_append, ← ih.1]
    exact h1

/-- C124: what the pad offers is determined by the key events since power-up, and by nothing else:
it starts with the first page of palettes; two keys choose between palettes and effects, two walk
cyclically through the two pages of the list on offer, which are remembered separately. -/
theorem keypad_pages (hreg : shippedRegistry .arduino seeds = .ok env.registry)
    {t₀ rand z z' rng h s} (r : Trellis.Run env (Trellis.init env t₀ rand z z' rng) h s) :
    offers s = (keyEvents h).foldl Chooser.after ⟨.color, 0, 0⟩ :=
  (keypad_pages_lt hreg r).1

/-- A concrete case: effects, forward, palettes, back: the second page of each. -/
example : ∃ h s, Trellis.Run Demo.env Demo.start h s ∧ offers s = ⟨.color, 1, 1⟩ := by
  obtain ⟨h, s, r, hc⟩ := Demo.run_of_check
    (l := [Demo.input 1100 none [Demo.down 13 1100, Demo.up 13 1120, Demo.down 12 1150],
      Demo.input 1050 none [Demo.down 14 1050, Demo.down 15 1060, Demo.up 15 1070]])
    (fun _ s => decide (offers s = ⟨.color, 1, 1⟩)) (by decide +kernel)
  exact ⟨h, s, r, of_decide_eq_true hc⟩

/-- C124 (refutation for other numbers of effects).  With `n` distinct effects, and therefore
`⌈n / 12⌉` pages, the left key on the first page leads to page `255 mod ⌈n / 12⌉`; this is the last
page only if the number of pages divides 256. -/
theorem keypad_left_wraps {e : Trellis.Event} {s s' : Trellis.State}
    (hm : s.mode = .effect) (h0 : s.effectPage = 0) (hk : e.key = 12) (hr : e.rising = true)
    (h : handle env s e = .ok s') {pages : Nat}
    (hpages : pages = (env.registry.getNumUniqueEffects.toNat + 11) / 12) :
    s'.effectPage.toNat = 255 % pages ∧ (s'.effectPage.toNat = pages - 1 ↔ 256 % pages = 0) := by
  have hn := env.registry.getNumUniqueEffects.isLt
  unfold handle at h
  rw [if_pos hr] at h
  simp only [press, bind, Except.bind, pure, Except.pure] at h
  split at h
  · cases h
  rename_i n hn'
  rw [hk, if_neg (by decide), if_neg (by decide), if_pos rfl, hm, h0] at h
  dsimp only at h
  have hp := (numPages_toNat env.registry.getNumUniqueEffects).trans hpages.symm
  unfold positiveMod8 at h
  split at h
  · rename_i hz
    split at hz
    · cases h
    · cases hz
  · rename_i v hz
    split at hz
    · cases hz
    · rename_i hne
      have hpos : 0 < pages := by
        rw [← hp]
        apply Nat.pos_of_ne_zero
        intro h; exact hne (BitVec.eq_of_toNat_eq h)
      have hle : pages ≤ 22 := by omega
      injection hz with hz
      injection h with h
      have hv : s'.effectPage.toNat = 255 % pages := by
        rw [← h, ← hz]
        show (BitVec.ofNat 8 _).toNat = _
        have h255 : (0 - 1 : U8).toNat = 255 := by decide
        rw [BitVec.toNat_ofNat, hp, h255]
        have := Nat.mod_lt 255 hpos
        rw [Nat.add_mod_right, Nat.mod_mod, Nat.mod_eq_of_lt (a := 255 % pages) (by omega)]
      refine ⟨hv, ?_⟩
      rw [hv]
      have fin : ∀ k : Fin 23, 0 < k.val → (255 % k.val = k.val - 1 ↔ 256 % k.val = 0) := by decide
      exact fin ⟨pages, by omega⟩ hpos

/-- A concrete case: with 25 distinct effects, on three pages, the left key on the first page leads
to the first page. -/
example : ∃ s', handle ⟨Demo.env.F, (Registry.empty.addAll .arduino
      ((List.range 25).map fun _ => (Effect.dark, (1 : U8)))).toOption.getD .empty⟩
      { Demo.start with mode := .effect } (Demo.down 12 1000) = .ok s' ∧ s'.effectPage = 0 := by
  have hc : (match handle ⟨Demo.env.F, (Registry.empty.addAll .arduino
      ((List.range 25).map fun _ => (Effect.dark, (1 : U8)))).toOption.getD .empty⟩
      { Demo.start with mode := .effect } (Demo.down 12 1000) with
    | .ok s' => decide (s'.effectPage = 0)
    | .error _ => false) = true := by decide +kernel
  split at hc
  · rename_i s' h; exact ⟨s', h, of_decide_eq_true hc⟩
  · cases hc

/-! ## C125: what a key transmits -/

/-- What is known of the state in which a key event is handled. -/
theorem _root_.Firefly.Spec.Handles.facts
    (hreg : shippedRegistry .arduino seeds = .ok env.registry)
    {t₀ rand z z' rng h s} (r : Trellis.Run env (Trellis.init env t₀ rand z z' rng) h s)
    {inp e s₁ s₂} (hh : Handles env s inp e s₁ s₂) :
    s₁.node.WF ∧ s₁.palettePage.toNat < 2 ∧ s₁.effectPage.toNat < 2 ∧ s₂ = result env s₁ e := by
  obtain ⟨node, pre, post, ht, _, h1, h2⟩ := hh
  obtain ⟨h', rd, j, j', x⟩ := keypad_is_a_node hreg r
  obtain ⟨_, h3, h4⟩ := keypad_pages_lt hreg r
  obtain ⟨h'', x', _⟩ := x.tick ht
  have wf' : node.WF := Run.wf ⟨rd, j, j', x'⟩
  obtain ⟨h5, wf₁, _⟩ := foldlM_handle hreg pre (s := { s with node := node }) wf'
  rw [h5] at h1
  cases h1
  obtain ⟨_, h6, h7⟩ := offers_foldl (env := env) pre (s := { s with node := node }) h3 h4
  rw [handle_eq hreg wf₁] at h2
  cases h2
  exact ⟨wf₁, h6, h7, rfl⟩

theorem orders_twice {s : Trellis.State} (e : Trellis.Event) (a b c : U8) (px) :
    Orders s { s with pixels := px, node := twice e (blank.writeSetEffect a b c) s.node } a b c := by
  refine ⟨_, _, List.append_assoc _ _ _, ?_⟩
  intro p hp
  rcases List.mem_cons.1 hp with rfl | hp
  · exact ⟨rfl, rfl, rfl, rfl, rfl⟩
  rcases List.mem_cons.1 hp with rfl | hp
  · exact ⟨rfl, rfl, rfl, rfl, rfl⟩
  · rw [List.mem_singleton] at hp
    subst hp
    exact ⟨rfl, rfl, rfl, rfl, rfl⟩

theorem twice_rotates {n : Node} (wf : n.WF) {e : Trellis.Event} (a c : U8)
    (hw : e.later.toNat + 255000 < 2 ^ 32) :
    RotatesAt .arduino (twice e (blank.writeSetEffect a 60 c) n) (e.later.toNat + 60000) :=
  local_timer (d := 60) (twice_wf wf _ _) hw rfl

theorem shipped_counts (hreg : shippedRegistry .arduino seeds = .ok env.registry) :
    env.registry.getNumEffects.toNat + env.registry.getNumNonRandomEffects.toNat = 35 := by
  obtain ⟨r, e, h1, h2, _⟩ := shipped_registry .arduino seeds
  rw [hreg] at e; cases e
  have h3 : env.registry.effects.length = 27 := by
    obtain ⟨r, e, _, h⟩ := shipped_indices .arduino seeds
    rw [hreg] at e; cases e; exact h
  rw [h1, Registry.getNumNonRandomEffects, show env.registry.nonRandom.length = 8 by omega]
  rfl

/-- Pressing a choosing key while palettes are offered, whatever the current instruction. -/
theorem palette_key_bytes (hreg : shippedRegistry .arduino seeds = .ok env.registry)
    {t₀ rand z z' rng h s} (r : Trellis.Run env (Trellis.init env t₀ rand z z' rng) h s)
    {inp e s₁ s₂} (hh : Handles env s inp e s₁ s₂) (hr : e.rising = true) (hk : e.key.val < 12)
    (hm : s₁.mode = .color) {j : Nat} (hj : j = 12 * s₁.palettePage.toNat + e.key.val) :
    (j < 22 → Orders s₁ s₂ (if s₁.node.getSetEffect.data[0] = 34 then 33
        else s₁.node.getSetEffect.data[0]) 60 (BitVec.ofNat 8 j) ∧
      (e.later.toNat + 255000 < 2 ^ 32 → RotatesAt .arduino s₂.node (e.later.toNat + 60000))) ∧
    (22 ≤ j → s₂.node = s₁.node) := by
  obtain ⟨wf, hp, he, rfl⟩ := hh.facts hreg r
  have hi := itemOf_toNat hp (Nat.lt_trans hk (by decide))
  rw [← hj] at hi
  have hne : ∀ v : Fin 16, 12 ≤ v.val → e.key ≠ v := fun v hv h => by rw [h] at hk; omega
  have hres : result env s₁ e = { s₁ with
      pixels := s₁.pixels.set e.key.val ⟨128, 128, 128⟩
      node := if itemOf s₁.palettePage e.key.val < 22 then
        twice e (blank.writeSetEffect (accompanying env s₁.node) 60
          (itemOf s₁.palettePage e.key.val)) s₁.node else s₁.node } := by
    unfold result
    rw [if_pos hr, if_neg (hne 13 (by decide)), if_neg (hne 14 (by decide)),
      if_neg (hne 12 (by decide)), if_neg (hne 15 (by decide)), hm]
  have hitem : itemOf s₁.palettePage e.key.val = BitVec.ofNat 8 j := by
    rw [← hi, BitVec.ofNat_toNat, BitVec.setWidth_eq]
  have hacc : accompanying env s₁.node = if s₁.node.getSetEffect.data[0] = 34 then (33 : U8)
      else s₁.node.getSetEffect.data[0] := by
    unfold accompanying
    rw [shipped_counts hreg]
    by_cases h : s₁.node.getSetEffect.data[0] = 34
    · rw [if_pos h, h]; rfl
    · rw [if_neg h, if_neg]
      intro h'
      exact h (BitVec.eq_of_toNat_eq (by show _ = 34; omega))
  rw [hres]
  constructor
  · intro hlt
    rw [if_pos (by rw [BitVec.lt_def, hi]; exact hlt), hacc, hitem]
    exact ⟨orders_twice _ _ _ _ _, fun hw => twice_rotates wf _ _ hw⟩
  · intro hge
    rw [if_neg (by rw [BitVec.lt_def, hi]; exact Nat.not_lt.2 hge)]

/-- C125: pressing a choosing key while palettes are offered and the current instruction is an
effect transmits, twice, the instruction to show that effect with the palette of the key, for 60
seconds (the dark effect is replaced by the palette display); a key without a palette transmits
nothing. -/
theorem keypad_palette_key (hreg : shippedRegistry .arduino seeds = .ok env.registry)
    {t₀ rand z z' rng h s} (r : Trellis.Run env (Trellis.init env t₀ rand z z' rng) h s)
    {inp e s₁ s₂} (hh : Handles env s inp e s₁ s₂) (hr : e.rising = true) (hk : e.key.val < 12)
    (hm : s₁.mode = .color) {j : Nat} (hj : j = 12 * s₁.palettePage.toNat + e.key.val)
    {effect palette : U8} (hf : FollowsEffect s₁.node effect palette) :
    (j < 22 →
      Orders s₁ s₂ (if effect = 34 then 33 else effect) 60 (BitVec.ofNat 8 j) ∧
      (e.later.toNat + 255000 < 2 ^ 32 → RotatesAt .arduino s₂.node (e.later.toNat + 60000))) ∧
    (22 ≤ j → s₂.node = s₁.node) := by
  obtain ⟨h1, h2⟩ := palette_key_bytes hreg r hh hr hk hm hj
  rw [hf.2.1] at h1
  exact ⟨h1, h2⟩

/-- A concrete case: with effect 1 current, the fourth key of the second page orders palette 15. -/
example : ∃ h s s₁ s₂, Trellis.Run Demo.env Demo.start h s ∧
    Handles Demo.env s (Demo.input 1100 none [Demo.down 3 1100]) (Demo.down 3 1100) s₁ s₂ ∧
    decide (s₁.mode = .color ∧ s₁.palettePage = 1 ∧ FollowsEffect s₁.node 1 0 ∧
      FollowsEffect s₂.node 1 15) = true :=
  Demo.handles_of_check (l := [Demo.input 1050 none [Demo.down 15 1050]]) (i := 0) rfl
    (fun s₁ s₂ => decide (s₁.mode = .color ∧ s₁.palettePage = 1 ∧ FollowsEffect s₁.node 1 0 ∧
      FollowsEffect s₂.node 1 15)) (by decide +kernel)

/-- A concrete case: with the dark effect current, a palette key orders the palette display. -/
example : ∃ h s s₁ s₂, Trellis.Run Demo.env Demo.start h s ∧
    Handles Demo.env s (Demo.input 1100 none [Demo.down 13 1100, Demo.down 3 1150])
      (Demo.down 3 1150) s₁ s₂ ∧
    decide (s₁.mode = .color ∧ FollowsEffect s₁.node 34 0 ∧ FollowsEffect s₂.node 33 3) = true :=
  Demo.handles_of_check (l := []) (i := 1) rfl
    (fun s₁ s₂ => decide (s₁.mode = .color ∧ FollowsEffect s₁.node 34 0 ∧
      FollowsEffect s₂.node 33 3)) (by decide +kernel)

/-- Pressing a choosing key while effects are offered, whatever the current instruction. -/
theorem effect_key_bytes (hreg : shippedRegistry .arduino seeds = .ok env.registry)
    {t₀ rand z z' rng h s} (r : Trellis.Run env (Trellis.init env t₀ rand z z' rng) h s)
    {inp e s₁ s₂} (hh : Handles env s inp e s₁ s₂) (hr : e.rising = true) (hk : e.key.val < 12)
    (hm : s₁.mode = .effect) {j : Nat} (hj : j = 12 * s₁.effectPage.toNat + e.key.val) :
    (j < 19 → Orders s₁ s₂ (slotOf j) 60 s₁.node.getSetEffect.data[2] ∧
      (e.later.toNat + 255000 < 2 ^ 32 → RotatesAt .arduino s₂.node (e.later.toNat + 60000))) ∧
    (19 ≤ j → s₂.node = s₁.node) := by
  obtain ⟨wf, hp, he, rfl⟩ := hh.facts hreg r
  have hi := itemOf_toNat he (Nat.lt_trans hk (by decide))
  rw [← hj] at hi
  have hne : ∀ v : Fin 16, 12 ≤ v.val → e.key ≠ v := fun v hv h => by rw [h] at hk; omega
  have hres : result env s₁ e = { s₁ with
      pixels := s₁.pixels.set e.key.val ⟨128, 128, 128⟩
      node := if itemOf s₁.effectPage e.key.val < 19 then
        twice e (blank.writeSetEffect
          (env.registry.uniqueEffectNumberToIndex (itemOf s₁.effectPage e.key.val)) 60
          s₁.node.getSetEffect.data[2]) s₁.node else s₁.node } := by
    unfold result
    rw [if_pos hr, if_neg (hne 13 (by decide)), if_neg (hne 14 (by decide)),
      if_neg (hne 12 (by decide)), if_neg (hne 15 (by decide)), hm]
  rw [hres]
  constructor
  · intro hlt
    rw [if_pos (by rw [BitVec.lt_def, hi]; exact hlt),
      slotOf_eq hreg _ (by rw [hi]; exact hlt), hi]
    exact ⟨orders_twice _ _ _ _ _, fun hw => twice_rotates wf _ _ hw⟩
  · intro hge
    rw [if_neg (by rw [BitVec.lt_def, hi]; exact Nat.not_lt.2 hge)]

/-- C125: pressing a choosing key while effects are offered and the current instruction is an
effect transmits, twice, the instruction to show the effect of the key with the current palette,
for 60 seconds; every device with the shipped effects takes the number transmitted for that effect.
A key without an effect transmits nothing. -/
theorem keypad_effect_key (hreg : shippedRegistry .arduino seeds = .ok env.registry)
    {t₀ rand z z' rng h s} (r : Trellis.Run env (Trellis.init env t₀ rand z z' rng) h s)
    {inp e s₁ s₂} (hh : Handles env s inp e s₁ s₂) (hr : e.rising = true) (hk : e.key.val < 12)
    (hm : s₁.mode = .effect) {j : Nat} (hj : j = 12 * s₁.effectPage.toNat + e.key.val)
    {effect palette : U8} (hf : FollowsEffect s₁.node effect palette) :
    (∀ hlt : j < 19, ∃ number,
      Orders s₁ s₂ number 60 palette ∧
      (∀ plat seeds' r', shippedRegistry plat seeds' = .ok r' →
        r'.getEffect plat number = .ok ((distinctEffects (shippedEffects seeds'))[j]'hlt)) ∧
      (e.later.toNat + 255000 < 2 ^ 32 → RotatesAt .arduino s₂.node (e.later.toNat + 60000))) ∧
    (19 ≤ j → s₂.node = s₁.node) := by
  obtain ⟨h1, h2⟩ := effect_key_bytes hreg r hh hr hk hm hj
  rw [hf.2.2] at h1
  exact ⟨fun hlt => ⟨_, (h1 hlt).1, fun _ _ _ h => slotOf_lookup h hlt, (h1 hlt).2⟩, h2⟩

/-- A concrete case: the sixth key of the second page of effects orders the palette display. -/
example : ∃ h s s₁ s₂, Trellis.Run Demo.env Demo.start h s ∧
    Handles Demo.env s (Demo.input 1100 none [Demo.down 15 1100, Demo.down 5 1150])
      (Demo.down 5 1150) s₁ s₂ ∧
    decide (s₁.mode = .effect ∧ s₁.effectPage = 1 ∧ FollowsEffect s₁.node 1 0 ∧
      FollowsEffect s₂.node 33 0) = true :=
  Demo.handles_of_check (l := [Demo.input 1050 none [Demo.down 14 1050]]) (i := 1) rfl
    (fun s₁ s₂ => decide (s₁.mode = .effect ∧ s₁.effectPage = 1 ∧ FollowsEffect s₁.node 1 0 ∧
      FollowsEffect s₂.node 33 0)) (by decide +kernel)

/-! ## C124: where each palette and effect is -/

theorem orders_bytes {s₁ s₂ : Trellis.State} {a a' b b' c c' : U8} (h : Orders s₁ s₂ a b c)
    (h' : Orders s₁ s₂ a' b' c') : a = a' ∧ c = c' := by
  obtain ⟨_, _, _, hp⟩ := h
  obtain ⟨_, _, _, hp'⟩ := h'
  have e := hp s₂.node.getSetEffect (by simp)
  have e' := hp' s₂.node.getSetEffect (by simp)
  exact ⟨e.2.2.1.symm.trans e'.2.2.1, e.2.2.2.2.symm.trans e'.2.2.2.2⟩

theorem orders_sends {s₁ s₂ : Trellis.State} {a b c : U8} (h : Orders s₁ s₂ a b c) :
    s₂.node ≠ s₁.node := by
  obtain ⟨q, q', hs, _⟩ := h
  intro e
  rw [e] at hs
  have := congrArg List.length hs
  simp at this

/-- C124: every one of the 22 palettes is on exactly one page and key.  Pressing a choosing key while
palettes are offered and an effect is followed orders that palette if and only if it is that key
and that page is offered. -/
theorem keypad_palette_place (hreg : shippedRegistry .arduino seeds = .ok env.registry) {j : Nat}
    (hj : j < 22) : ∃ page < 2, ∃ key < 12, ∀ {t₀ rand z z' rng h s}
    (_ : Trellis.Run env (Trellis.init env t₀ rand z z' rng) h s) {inp e s₁ s₂}
    (_ : Handles env s inp e s₁ s₂) (_ : e.rising = true) (_ : e.key.val < 12)
    (_ : s₁.mode = .color) {effect palette : U8} (_ : FollowsEffect s₁.node effect palette),
    (∃ number, Orders s₁ s₂ number 60 (BitVec.ofNat 8 j)) ↔
      s₁.palettePage.toNat = page ∧ e.key.val = key := by
  refine ⟨j / 12, by omega, j % 12, by omega, ?_⟩
  intro t₀ rand z z' rng h s r inp e s₁ s₂ hh hr hk hm effect palette hf
  obtain ⟨h1, h2⟩ := keypad_palette_key hreg r hh hr hk hm rfl hf
  constructor
  · rintro ⟨number, ho⟩
    by_cases hlt : 12 * s₁.palettePage.toNat + e.key.val < 22
    · have := congrArg BitVec.toNat (orders_bytes ho (h1 hlt).1).2
      simp only [BitVec.toNat_ofNat] at this
      rw [Nat.mod_eq_of_lt (by omega), Nat.mod_eq_of_lt (by omega)] at this
      omega
    · exact absurd (h2 (by omega)) (orders_sends ho)
  · rintro ⟨hp, hk'⟩
    have e : 12 * s₁.palettePage.toNat + e.key.val = j := by omega
    rw [e] at h1
    exact ⟨_, (h1 hj).1⟩

/-- C124: each of the 19 registered effects has a number of its own and is on exactly one page and
key.  Pressing a choosing key while effects are offered and an effect is followed orders that number
if and only if it is that key and that page is offered.  (The swinging lights are registered twice,
so they are on two keys.) -/
theorem keypad_effect_place (hreg : shippedRegistry .arduino seeds = .ok env.registry) {j : Nat}
    (hj : j < (distinctEffects (shippedEffects seeds)).length) :
    ∃ number, env.registry.getEffect .arduino number =
        .ok (distinctEffects (shippedEffects seeds))[j] ∧
      ∃ page < 2, ∃ key < 12, ∀ {t₀ rand z z' rng h s}
        (_ : Trellis.Run env (Trellis.init env t₀ rand z z' rng) h s) {inp e s₁ s₂}
        (_ : Handles env s inp e s₁ s₂) (_ : e.rising = true) (_ : e.key.val < 12)
        (_ : s₁.mode = .effect) {effect palette : U8} (_ : FollowsEffect s₁.node effect palette),
        Orders s₁ s₂ number 60 palette ↔ s₁.effectPage.toNat = page ∧ e.key.val = key := by
  have hj' : j < 19 := hj
  refine ⟨slotOf j, slotOf_lookup hreg hj, j / 12, by omega, j % 12, by omega, ?_⟩
  intro t₀ rand z z' rng h s r inp e s₁ s₂ hh hr hk hm effect palette hf
  obtain ⟨h1, h2⟩ := effect_key_bytes hreg r hh hr hk hm rfl
  rw [hf.2.2] at h1
  have inj : ∀ a b : Fin 19, slotOf a.val = slotOf b.val → a = b := by decide
  constructor
  · intro ho
    by_cases hlt : 12 * s₁.effectPage.toNat + e.key.val < 19
    · have := congrArg Fin.val (inj ⟨j, hj'⟩ ⟨_, hlt⟩ (orders_bytes ho (h1 hlt).1).1)
      simp only at this
      omega
    · exact absurd (h2 (by omega)) (orders_sends ho)
  · rintro ⟨hp, hk'⟩
    have e' : 12 * s₁.effectPage.toNat + e.key.val = j := by omega
    rw [e'] at h1
    exact (h1 hj').1

/-- C125: pressing the palette key while palettes are offered already turns the lights off: it
transmits (once) the instruction to show the dark effect for 60 seconds. -/
theorem keypad_dark_key (hreg : shippedRegistry .arduino seeds = .ok env.registry)
    {t₀ rand z z' rng h s} (r : Trellis.Run env (Trellis.init env t₀ rand z z' rng) h s)
    {inp e s₁ s₂} (hh : Handles env s inp e s₁ s₂) (hr : e.rising = true) (hk : e.key.val = 13)
    (hm : s₁.mode = .color) :
    ∃ q, s₂.node.sent = s₁.node.sent ++ [q] ∧ q.type = .setEffect ∧ q.len = 3 ∧ q.data[1] = 60 ∧
      q.data[2] = 0 ∧ SameContent s₂.node.getSetEffect q ∧
      ∀ plat seeds' r', shippedRegistry plat seeds' = .ok r' →
        r'.getEffect plat q.data[0] = .ok .dark := by
  obtain ⟨wf, hp, he, rfl⟩ := hh.facts hreg r
  have hk : e.key = 13 := Fin.ext hk
  have hres : (result env s₁ e).node = s₁.node.afterSetEffect .arduino e.now (darkOrder env) := by
    unfold result
    rw [if_pos hr, if_pos hk, if_pos hm]
  rw [hres]
  refine ⟨_, rfl, rfl, rfl, rfl, rfl, ⟨rfl, rfl, rfl⟩, fun plat seeds' r' h => ?_⟩
  have e : (Node.stamped .arduino (darkOrder env) s₁.node).data[0] =
      env.registry.uniqueEffectNumberToIndex 18 := rfl
  rw [e, slotOf_eq hreg 18 (by decide)]
  exact slotOf_lookup h (k := 18) (by decide)

/-- A concrete case: the palette key as the first key pressed. -/
example : ∃ h s s₁ s₂, Trellis.Run Demo.env Demo.start h s ∧
    Handles Demo.env s (Demo.input 1100 none [Demo.down 13 1100]) (Demo.down 13 1100) s₁ s₂ ∧
    decide (s₁.mode = .color ∧ FollowsEffect s₂.node 34 0) = true :=
  Demo.handles_of_check (l := []) (i := 0) rfl
    (fun s₁ s₂ => decide (s₁.mode = .color ∧ FollowsEffect s₂.node 34 0)) (by decide +kernel)

/-- C125: no other key event makes the pad transmit anything: neither releasing a key, nor the keys
that turn pages or change to effects, nor changing from effects to palettes. -/
theorem keypad_silent (hreg : shippedRegistry .arduino seeds = .ok env.registry)
    {t₀ rand z z' rng h s} (r : Trellis.Run env (Trellis.init env t₀ rand z z' rng) h s)
    {inp e s₁ s₂} (hh : Handles env s inp e s₁ s₂)
    (hq : e.rising = false ∨ e.key.val = 12 ∨ e.key.val = 14 ∨ e.key.val = 15 ∨
      (e.key.val = 13 ∧ s₁.mode = .effect)) : s₂.node = s₁.node := by
  obtain ⟨wf, hp, he, rfl⟩ := hh.facts hreg r
  obtain ⟨⟨k, hk⟩, rising, now, later⟩ := e
  dsimp only at hq
  cases rising with
  | false =>
    simp only [result, Bool.false_eq_true, if_false]
    unfold release
    repeat' split
    all_goals rfl
  | true =>
    rcases hq with h | rfl | rfl | rfl | ⟨rfl, hm⟩
    · cases h
    · cases hm : s₁.mode <;> simp [result, hm]
    · cases hm : s₁.mode <;> simp [result]
    · cases hm : s₁.mode <;> simp [result, hm]
    · simp [result, hm]

/-- A concrete case: the palette key while effects are offered. -/
example : ∃ h s s₁ s₂, Trellis.Run Demo.env Demo.start h s ∧
    Handles Demo.env s (Demo.input 1100 none [Demo.down 13 1100]) (Demo.down 13 1100) s₁ s₂ ∧
    decide (s₁.mode = .effect ∧ s₂.mode = .color ∧ s₂.node.sent = []) = true :=
  Demo.handles_of_check (l := [Demo.input 1050 none [Demo.down 14 1050]]) (i := 0) rfl
    (fun s₁ s₂ => decide (s₁.mode = .effect ∧ s₂.mode = .color ∧ s₂.node.sent = []))
    (by decide +kernel)

/-- C125 (refutation).  While the current instruction is a colour, the pad takes its delay for the
number of an effect and its green part for the number of a palette: a palette key transmits an
effect nobody chose, and an effect key names a palette that does not exist if there is enough green
in the colour (boards that receive that leave their palette table: C59). -/
theorem keypad_after_colour (hreg : shippedRegistry .arduino seeds = .ok env.registry)
    {t₀ rand z z' rng h s} (r : Trellis.Run env (Trellis.init env t₀ rand z z' rng) h s)
    {inp e s₁ s₂} (hh : Handles env s inp e s₁ s₂) (hr : e.rising = true) (hk : e.key.val < 12)
    {delay : U8} {c : CRGB} (hf : FollowsColour s₁.node delay c) :
    (s₁.mode = .color → 12 * s₁.palettePage.toNat + e.key.val < 22 →
      Orders s₁ s₂ (if delay = 34 then 33 else delay) 60
        (BitVec.ofNat 8 (12 * s₁.palettePage.toNat + e.key.val))) ∧
    (s₁.mode = .effect → 12 * s₁.effectPage.toNat + e.key.val < 19 →
      ∃ number, Orders s₁ s₂ number 60 c.g) := by
  constructor
  · intro hm hlt
    have := ((palette_key_bytes hreg r hh hr hk hm rfl).1 hlt).1
    rwa [hf.2.1] at this
  · intro hm hlt
    have := ((effect_key_bytes hreg r hh hr hk hm rfl).1 hlt).1
    rw [hf.2.2.2.1] at this
    exact ⟨_, this⟩

/-- A concrete case: while the colour (7, 200, 7) is shown for 20 seconds, a palette key orders
effect 20. -/
example : ∃ h s s₁ s₂, Trellis.Run Demo.env Demo.start h s ∧
    Handles Demo.env s (Demo.input 1100 (some (Demo.colour 9 20 7 200 7)) [Demo.down 3 1100])
      (Demo.down 3 1100) s₁ s₂ ∧
    decide (FollowsColour s₁.node 20 ⟨7, 200, 7⟩ ∧ s₁.mode = .color ∧
      FollowsEffect s₂.node 20 3) = true :=
  Demo.handles_of_check (l := []) (i := 0) rfl
    (fun s₁ s₂ => decide (FollowsColour s₁.node 20 ⟨7, 200, 7⟩ ∧ s₁.mode = .color ∧
      FollowsEffect s₂.node 20 3)) (by decide +kernel)

/-- A concrete case: while the colour (7, 200, 7) is shown, an effect key orders an effect with
palette 200. -/
example : ∃ h s s₁ s₂, Trellis.Run Demo.env Demo.start h s ∧
    Handles Demo.env s (Demo.input 1100 (some (Demo.colour 9 20 7 200 7)) [Demo.down 0 1100])
      (Demo.down 0 1100) s₁ s₂ ∧
    decide (FollowsColour s₁.node 20 ⟨7, 200, 7⟩ ∧ s₁.mode = .effect ∧
      FollowsEffect s₂.node 0 200) = true :=
  Demo.handles_of_check (l := [Demo.input 1050 none [Demo.down 14 1050]]) (i := 0) rfl
    (fun s₁ s₂ => decide (FollowsColour s₁.node 20 ⟨7, 200, 7⟩ ∧ s₁.mode = .effect ∧
      FollowsEffect s₂.node 0 200)) (by decide +kernel)

/-! ## C126: what is chosen on the pad appears on the boards -/

theorem orders_shown {s₁ s₂ : Trellis.State} {number delay palette : U8}
    (ho : Orders s₁ s₂ number delay palette) :
    ∃ q q', s₂.node.sent = s₁.node.sent ++ [q, q'] ∧
      ∀ p ∈ [q, q'], ∃ f, Hw.sendPacket p = .ok f ∧
      ∀ {env : Board.Env} {seeds : EffectSeeds},
        shippedRegistry .arduino seeds = .ok env.registry →
        ∀ {t₀ rand h s} (_ : Board.Run env (Board.init env t₀ rand) h s)
        {inp s'}, totalLeds env.device ≤ 255 → BoardAwake env s inp →
        Board.loop env inp s = .ok s' → Receives s inp f →
        ∀ e, env.registry.getEffect .arduino number = .ok e →
        ∀ k (hk : k < (ledsInOrder env.device).length), ∃ c, s'.leds[k + 1]? = some c ∧
          ShowsEffect env.F e palette (ledsInOrder env.device)[k].1 (ledsInOrder env.device)[k].2
            (s'.node.getNetworkMillis (inp.clock k)) c := by
  obtain ⟨q, q', hs, hall⟩ := ho
  refine ⟨q, q', hs, fun p hp => ?_⟩
  obtain ⟨h1, h2, h3, _, h5⟩ := hall p (by
    rcases List.mem_cons.1 hp with rfl | hp
    · exact List.mem_cons_self
    · rw [List.mem_singleton] at hp
      subst hp
      exact List.mem_cons_of_mem _ List.mem_cons_self)
  refine ⟨_, sendPacket_ok (by rw [h2]; decide), ?_⟩
  intro env seeds hreg t₀ rand h s r inp s' h255 ha hl hrec e he k hk
  rw [← h3] at he
  have := receives_effect hreg r h255 ha hl (sendPacket_ok (by rw [h2]; decide)) h1
    (by rw [h2]; decide) hrec he k hk
  rwa [h5] at this

/-- C126: pressing the key of an effect transmits two frames, and every board with the shipped
effects that receives either of them shows that effect with the current palette at its network
time. -/
theorem keypad_effect_shown (hreg : shippedRegistry .arduino seeds = .ok env.registry)
    {t₀ rand z z' rng h s} (r : Trellis.Run env (Trellis.init env t₀ rand z z' rng) h s)
    {inp e s₁ s₂} (hh : Handles env s inp e s₁ s₂) (hr : e.rising = true) (hk : e.key.val < 12)
    (hm : s₁.mode = .effect) {j : Nat} (hj : j = 12 * s₁.effectPage.toNat + e.key.val) (hlt : j < 19)
    {effect palette : U8} (hf : FollowsEffect s₁.node effect palette) :
    ∃ q q', s₂.node.sent = s₁.node.sent ++ [q, q'] ∧
      ∀ p ∈ [q, q'], ∃ f, Hw.sendPacket p = .ok f ∧
      ∀ {env : Board.Env} {seeds : EffectSeeds},
        shippedRegistry .arduino seeds = .ok env.registry →
        ∀ {t₀ rand h s} (_ : Board.Run env (Board.init env t₀ rand) h s)
        {inp s'}, totalLeds env.device ≤ 255 → BoardAwake env s inp →
        Board.loop env inp s = .ok s' → Receives s inp f →
        ∀ k (hk : k < (ledsInOrder env.device).length), ∃ c, s'.leds[k + 1]? = some c ∧
          ShowsEffect env.F ((distinctEffects (shippedEffects seeds))[j]'hlt) palette
            (ledsInOrder env.device)[k].1 (ledsInOrder env.device)[k].2
            (s'.node.getNetworkMillis (inp.clock k)) c := by
  obtain ⟨number, ho, hlook, _⟩ := (keypad_effect_key hreg r hh hr hk hm hj hf).1 hlt
  obtain ⟨q, q', h1, h2⟩ := orders_shown ho
  refine ⟨q, q', h1, fun p hp => ?_⟩
  obtain ⟨f, h3, h4⟩ := h2 p hp
  exact ⟨f, h3, fun hreg' => fun r' => fun h255 ha hl hrec k hk =>
    h4 hreg' r' h255 ha hl hrec _ (hlook _ _ _ hreg') k hk⟩

/-- C126: pressing the key of a palette transmits two frames, and every board with the shipped
effects that receives either of them shows that palette with the effect the pad follows (the
palette display if it follows the dark effect). -/
theorem keypad_palette_shown (hreg : shippedRegistry .arduino seeds = .ok env.registry)
    {t₀ rand z z' rng h s} (r : Trellis.Run env (Trellis.init env t₀ rand z z' rng) h s)
    {inp e s₁ s₂} (hh : Handles env s inp e s₁ s₂) (hr : e.rising = true) (hk : e.key.val < 12)
    (hm : s₁.mode = .color) {j : Nat} (hj : j = 12 * s₁.palettePage.toNat + e.key.val) (hlt : j < 22)
    {effect palette : U8} (hf : FollowsEffect s₁.node effect palette) :
    ∃ q q', s₂.node.sent = s₁.node.sent ++ [q, q'] ∧
      ∀ p ∈ [q, q'], ∃ f, Hw.sendPacket p = .ok f ∧
      ∀ {env : Board.Env} {seeds : EffectSeeds},
        shippedRegistry .arduino seeds = .ok env.registry →
        ∀ {t₀ rand h s} (_ : Board.Run env (Board.init env t₀ rand) h s)
        {inp s'}, totalLeds env.device ≤ 255 → BoardAwake env s inp →
        Board.loop env inp s = .ok s' → Receives s inp f →
        ∀ e, (effect ≠ 34 → env.registry.getEffect .arduino effect = .ok e) →
          (effect = 34 → e = .displayColorPalette) →
        ∀ k (hk : k < (ledsInOrder env.device).length), ∃ c, s'.leds[k + 1]? = some c ∧
          ShowsEffect env.F e (BitVec.ofNat 8 j)
            (ledsInOrder env.device)[k].1 (ledsInOrder env.device)[k].2
            (s'.node.getNetworkMillis (inp.clock k)) c := by
  obtain ⟨ho, _⟩ := (keypad_palette_key hreg r hh hr hk hm hj hf).1 hlt
  obtain ⟨q, q', h1, h2⟩ := orders_shown ho
  refine ⟨q, q', h1, fun p hp => ?_⟩
  obtain ⟨f, h3, h4⟩ := h2 p hp
  refine ⟨f, h3, fun hreg' => fun r' => fun h255 ha hl hrec e h5 h6 k hk => ?_⟩
  refine h4 hreg' r' h255 ha hl hrec e ?_ k hk
  by_cases h34 : effect = 34
  · rw [if_pos h34, h6 h34]
    exact slotOf_lookup hreg' (k := 17) (by decide)
  · rw [if_neg h34]; exact h5 h34

/-- A concrete case on the side of the board (for the pad see the examples of `keypad_effect_key`
and `keypad_palette_key`): it receives the instruction to show the effect in slot 33 with palette
15, with number 9. -/
example : ∃ h s s', Board.Run (Board.Demo.env .node) (Board.Demo.start .node) h s ∧ h ≠ [] ∧
    BoardAwake (Board.Demo.env .node) s (Board.Demo.input 1040 0 (some [0, 9, 2, 33, 60, 15]) none) ∧
    Board.loop (Board.Demo.env .node)
      (Board.Demo.input 1040 0 (some [0, 9, 2, 33, 60, 15]) none) s = .ok s' ∧
    Receives s (Board.Demo.input 1040 0 (some [0, 9, 2, 33, 60, 15]) none) [0, 9, 2, 33, 60, 15] ∧
    decide (s'.leds[1]? ≠ some ⟨0, 0, 0⟩) = true ∧
    totalLeds (Board.Demo.env .node).device ≤ 255 :=
  Board.Demo.receives (fun s' => decide (s'.leds[1]? ≠ some ⟨0, 0, 0⟩)) rfl (by decide +kernel)

/-! ## C127: what the keys show -/

/-- A loop that computes and sets one pixel after the other. -/
theorem paint_pixels {f : Trellis.State → Fin 12 → Except Fault Trellis.State}
    {good : Trellis.State → Fin 12 → CRGB → Prop}
    (hf : ∀ {s i s'}, f s i = .ok s' → ∃ c r, good s i c ∧
      s' = { s with pixels := s.pixels.set i.val c, rng := r })
    (hg : ∀ {s i c} p r, good s i c → good { s with pixels := p, rng := r } i c)
    {l : List (Fin 12)} (hl : l.Nodup) {s s' : Trellis.State} (h : l.foldlM f s = .ok s') :
    (∀ i ∈ l, good s' i s'.pixels[i.val]) ∧
      ∀ (k : Nat) (hk : k < 16), (∀ i ∈ l, i.val ≠ k) → s'.pixels[k] = s.pixels[k] := by
  induction l generalizing s with
  | nil => cases h; exact ⟨nofun, fun _ _ _ => rfl⟩
  | cons i l ih =>
    rw [List.foldlM_cons] at h
    simp only [bind, Except.bind] at h
    split at h
    · cases h
    · rename_i s₁ h1
      obtain ⟨c, rg, hgood, rfl⟩ := hf h1
      obtain ⟨hi, hl'⟩ := List.nodup_cons.1 hl
      obtain ⟨h2, h3⟩ := ih hl' h
      obtain ⟨p', r', e⟩ := paint_keeps (fun h => by
        obtain ⟨c, r, _, e⟩ := hf h; exact ⟨_, _, e⟩) l h
      have hpi : s'.pixels[i.val] = c := by
        rw [h3 i.val (by omega) (fun k hk hki => hi (by rw [← Fin.ext hki]; exact hk))]
        simp
      refine ⟨fun k hk => ?_, fun k hk hne => ?_⟩
      · rcases List.mem_cons.1 hk with rfl | hk
        · rw [hpi, e]
          exact hg (s := s) _ _ hgood
        · exact h2 k hk
      · rw [h3 k hk fun j hj => hne j (List.mem_cons_of_mem _ hj)]
        exact Vector.getElem_set_ne (by omega) hk (hne i List.mem_cons_self)

theorem getRGB_any_rng {F : FastLED} {e : Effect} {led : U8} {t : U32} {strip : Strip} {p : Packet}
    {rng rng' : U16} {c : CRGB} (h : e.getRGB F .arduino led t strip p rng = .ok (c, rng'))
    (rng₂ : U16) : ∃ r, e.getRGB F .arduino led t strip p rng₂ = .ok (c, r) := by
  have := Effect.getColour_rng F .arduino e led t strip p rng rng₂
  simp only [Effect.getRGB] at h ⊢
  cases h1 : e.getColour F .arduino led t strip p rng with
  | error => rw [h1] at h; cases h
  | ok x =>
    rw [h1] at h this
    cases h2 : e.getColour F .arduino led t strip p rng₂ with
    | error => rw [h2] at this; cases this
    | ok y =>
      rw [h2] at this
      have hxy : x.1 = y.1 := Except.ok.inj this
      have hx : (x.1.toRGB F, x.2) = (c, rng') := Except.ok.inj h
      exact ⟨y.2, by show Except.ok (y.1.toRGB F, y.2) = _; rw [← hxy, (Prod.mk.inj hx).1]⟩

theorem getRGB_shows {F : FastLED} {e : Effect} {t : U32} {p : Packet} {rng rng' : U16} {c : CRGB}
    (he : e ≠ .control) (h : e.getRGB F .arduino 0 t kStrip p rng = .ok (c, rng')) :
    ShowsEffect F e p.data[2] (Strip.new 1 []) 0 t c := by
  unfold ShowsEffect
  rw [if_neg (by decide)]
  refine ⟨c, ?_, fun q _ hq rng₂ => ?_⟩
  · rw [asShown, if_neg (by decide), if_neg (by decide)]
  · obtain ⟨r, hr⟩ := getRGB_any_rng h rng₂
    refine ⟨r, ?_⟩
    rw [← hr]
    simp only [Effect.getRGB]
    rw [getColour_palette hq he]
    rfl

theorem atHalf_trellis (c : CRGB) : AtHalf c (rgbToTrellisColor c 128) := by
  have h : ∀ x : U8, (BitVec.ofNat 8 (x.toNat * (128 : U8).toNat / 255)).toNat =
      x.toNat * 128 / 255 := by
    intro x
    have := x.isLt
    rw [BitVec.toNat_ofNat, show (128 : U8).toNat = 128 from rfl]
    omega
  exact ⟨h _, h _, h _⟩

theorem nodup_finRange : (List.finRange 12).Nodup := by decide

/-- C127: after an iteration in which palettes were offered, each of the twelve keys shows, at half
brightness, what a board of one LED displaying the palette of that key shows at the pad's network
time; keys without a palette are dark. -/
theorem keypad_shows_palettes (hreg : shippedRegistry .arduino seeds = .ok env.registry)
    {t₀ rand z z' rng h s} (r : Trellis.Run env (Trellis.init env t₀ rand z z' rng) h s)
    {inp s'} (hl : Trellis.loop env inp s = .ok s') (hm : s.mode = .color)
    {k j : Nat} (hk : k < 12) (hj : j = 12 * s'.palettePage.toNat + k) :
    (22 ≤ j → s'.pixels[k] = ⟨0, 0, 0⟩) ∧
    (j < 22 → ∃ c, ShowsEffect env.F .displayColorPalette (BitVec.ofNat 8 j) (Strip.new 1 []) 0
        (s'.node.getNetworkMillis (inp.clock k)) c ∧ AtHalf c s'.pixels[k]) := by
  obtain ⟨h', x⟩ := keypad_is_a_node hreg r
  obtain ⟨node, _, _, hshow, _, px, rg, he⟩ := Trellis.loop_ok hreg x.wf hl
  have hp : s'.palettePage.toNat < 2 := (keypad_pages_lt hreg (.cons inp r hl)).2.1
  have hgood := (paint_pixels (good := fun s i c =>
      (22 ≤ itemOf s.palettePage i.val → c = CRGB.black) ∧
      (itemOf s.palettePage i.val < 22 → ∃ rgb rng rng', Effect.displayColorPalette.getRGB env.F
        .arduino 0 (s.node.getNetworkMillis (inp.clock i.val)) kStrip
        (blank.writeSetEffect 0 0 (itemOf s.palettePage i.val)) rng = .ok (rgb, rng') ∧
        c = rgbToTrellisColor rgb 128))
    (by
      intro s i s' h
      simp only [bind, Except.bind, pure, Except.pure] at h
      split at h
      · rename_i hge
        cases h
        exact ⟨_, _, ⟨fun _ => rfl, fun hlt => absurd hge (by
          rw [BitVec.lt_def] at hlt; rw [BitVec.le_def]; omega)⟩, rfl⟩
      · rename_i hge
        split at h
        · cases h
        · rename_i a ha
          cases h
          exact ⟨_, _, ⟨fun hge' => absurd hge' hge, fun _ => ⟨_, _, _, ha, rfl⟩⟩, rfl⟩)
    (fun _ _ h => h) nodup_finRange (hshow hm)).1 ⟨k, hk⟩ (List.mem_finRange _)
  have hi := itemOf_toNat hp (Nat.lt_trans hk (by decide))
  rw [← hj] at hi
  have hitem : itemOf s'.palettePage k = BitVec.ofNat 8 j := by
    rw [← hi, BitVec.ofNat_toNat, BitVec.setWidth_eq]
  dsimp only at hgood
  constructor
  · intro hge
    exact hgood.1 (by rw [BitVec.le_def, hi]; exact hge)
  · intro hlt
    obtain ⟨rgb, rng, rng', h1, h2⟩ := hgood.2 (by rw [BitVec.lt_def, hi]; exact hlt)
    rw [hitem] at h1
    refine ⟨rgb, getRGB_shows (by simp) h1, ?_⟩
    rw [h2]
    exact atHalf_trellis rgb

/-- A concrete case: the last two keys of the second page of palettes are dark, the others not. -/
example : ∃ h s, Trellis.Run Demo.env Demo.start h s ∧ s.mode = .color ∧ s.palettePage = 1 ∧
    s.pixels[9] ≠ ⟨0, 0, 0⟩ ∧ s.pixels[10] = ⟨0, 0, 0⟩ ∧ s.pixels[11] = ⟨0, 0, 0⟩ := by
  obtain ⟨h, s, r, hc⟩ := Demo.run_of_check (l := [Demo.input 1100 none [Demo.down 12 1100]])
    (fun _ s => decide (s.mode = .color ∧ s.palettePage = 1 ∧
      s.pixels[9] ≠ ⟨0, 0, 0⟩ ∧ s.pixels[10] = ⟨0, 0, 0⟩ ∧ s.pixels[11] = ⟨0, 0, 0⟩))
    (by decide +kernel)
  exact ⟨h, s, r, of_decide_eq_true hc⟩

/-- C127: after an iteration in which effects were offered, each of the twelve keys shows, at half
brightness, what a board of one LED showing the effect of that key with the current palette shows at
the pad's network time; keys without an effect are dark. -/
theorem keypad_shows_effects (hreg : shippedRegistry .arduino seeds = .ok env.registry)
    {t₀ rand z z' rng h s} (r : Trellis.Run env (Trellis.init env t₀ rand z z' rng) h s)
    {inp s'} (hl : Trellis.loop env inp s = .ok s') (hm : s.mode = .effect)
    {k j : Nat} (hk : k < 12) (hj : j = 12 * s'.effectPage.toNat + k)
    {effect palette : U8} (hf : FollowsEffect s'.node effect palette) :
    (19 ≤ j → s'.pixels[k] = ⟨0, 0, 0⟩) ∧
    (∀ hlt : j < 19, ∃ c, ShowsEffect env.F ((distinctEffects (shippedEffects seeds))[j]'hlt) palette
        (Strip.new 1 []) 0 (s'.node.getNetworkMillis (inp.clock k)) c ∧ AtHalf c s'.pixels[k]) := by
  obtain ⟨h', x⟩ := keypad_is_a_node hreg r
  obtain ⟨node, _, _, _, hshow, px, rg, he⟩ := Trellis.loop_ok hreg x.wf hl
  have hp : s'.effectPage.toNat < 2 := (keypad_pages_lt hreg (.cons inp r hl)).2.2
  have hgood := (paint_pixels (good := fun s i c =>
      (19 ≤ itemOf s.effectPage i.val → c = CRGB.black) ∧
      (itemOf s.effectPage i.val < 19 → ∃ e rgb rng rng', env.registry.getEffect .arduino
        (env.registry.uniqueEffectNumberToIndex (itemOf s.effectPage i.val)) = .ok e ∧ e.getRGB env.F
        .arduino 0 (s.node.getNetworkMillis (inp.clock i.val)) kStrip s.node.getSetEffect rng =
          .ok (rgb, rng') ∧ c = rgbToTrellisColor rgb 128))
    (by
      intro s i s' h
      rw [numUnique_eq hreg] at h
      simp only [bind, Except.bind, pure, Except.pure] at h
      split at h
      · rename_i hge
        cases h
        exact ⟨_, _, ⟨fun _ => rfl, fun hlt => absurd hge (by
          rw [BitVec.lt_def] at hlt; rw [BitVec.le_def]; omega)⟩, rfl⟩
      · rename_i hge
        split at h
        · cases h
        · rename_i e he
          split at h
          · cases h
          · rename_i a ha
            cases h
            exact ⟨_, _, ⟨fun hge' => absurd hge' hge, fun _ => ⟨_, _, _, _, he, ha, rfl⟩⟩, rfl⟩)
    (fun _ _ h => h) nodup_finRange (hshow hm)).1 ⟨k, hk⟩ (List.mem_finRange _)
  have hi := itemOf_toNat hp (Nat.lt_trans hk (by decide))
  rw [← hj] at hi
  dsimp only at hgood
  constructor
  · intro hge
    exact hgood.1 (by rw [BitVec.le_def, hi]; exact hge)
  · intro hlt
    obtain ⟨e, rgb, rng, rng', h0, h1, h2⟩ := hgood.2 (by rw [BitVec.lt_def, hi]; exact hlt)
    rw [slotOf_eq hreg _ (by rw [hi]; exact hlt), hi, slotOf_lookup hreg hlt] at h0
    cases h0
    have hne := (shipped_effects_regular seeds (List.getElem_mem hlt)).1
    refine ⟨rgb, ?_, ?_⟩
    · have := getRGB_shows hne h1
      rwa [hf.2.2] at this
    · rw [h2]
      exact atHalf_trellis rgb

/-- A concrete case: the seventh key of the second page of effects (the dark one) and the eighth
(none) are dark, the sixth (the palette display) is not. -/
example : ∃ h s, Trellis.Run Demo.env Demo.start h s ∧ s.mode = .effect ∧ s.effectPage = 1 ∧
    FollowsEffect s.node 1 0 ∧ s.pixels[5] ≠ ⟨0, 0, 0⟩ ∧ s.pixels[6] = ⟨0, 0, 0⟩ ∧
    s.pixels[7] = ⟨0, 0, 0⟩ := by
  obtain ⟨h, s, r, hc⟩ := Demo.run_of_check
    (l := [Demo.input 1100 none [Demo.down 15 1100], Demo.input 1050 none [Demo.down 14 1050]])
    (fun _ s => decide (s.mode = .effect ∧ s.effectPage = 1 ∧
      FollowsEffect s.node 1 0 ∧ s.pixels[5] ≠ ⟨0, 0, 0⟩ ∧ s.pixels[6] = ⟨0, 0, 0⟩ ∧
      s.pixels[7] = ⟨0, 0, 0⟩)) (by decide +kernel)
  exact ⟨h, s, r, of_decide_eq_true hc⟩

/-! ### The bottom row -/

/-- The lamps of the bottom row in a state of the pad fit the keys held. -/
def LampsFit (s : Trellis.State) (held : Nat → Bool) : Prop :=
  ∀ (k : Nat) (h : 12 ≤ k) (hk : k < 16), s.pixels[k] = keyLamp k (held k)

theorem result_pixels (s : Trellis.State) (e : Trellis.Event) :
    (result env s e).pixels =
      if e.rising then s.pixels.set e.key.val (keyLamp e.key.val true)
      else if 12 ≤ e.key.val then s.pixels.set e.key.val (keyLamp e.key.val false) else s.pixels := by
  obtain ⟨key, rising, now, later⟩ := e
  unfold result release
  dsimp only
  cases rising with
  | true =>
    simp only [if_true]
    by_cases h13 : key = 13
    · subst h13; rfl
    rw [if_neg h13]
    by_cases h14 : key = 14
    · subst h14; rfl
    rw [if_neg h14]
    by_cases h12 : key = 12
    · subst h12; rw [if_pos rfl]; split <;> rfl
    rw [if_neg h12]
    by_cases h15 : key = 15
    · subst h15; rw [if_pos rfl]; split <;> rfl
    rw [if_neg h15]
    have : keyLamp key.val true = ⟨128, 128, 128⟩ := by
      unfold keyLamp
      have h1 : key.val ≠ 12 := fun h => h12 (Fin.ext h)
      have h2 : key.val ≠ 15 := fun h => h15 (Fin.ext h)
      rw [if_neg h1, if_neg h2]
      rfl
    rw [this]
    generalize s.mode = m at *
    cases m <;> rfl
  | false =>
    simp only [Bool.false_eq_true, if_false]
    by_cases h12 : key = 12
    · subst h12; rfl
    rw [if_neg h12]
    by_cases h15 : key = 15
    · subst h15; rfl
    rw [if_neg h15]
    by_cases h14 : key = 14
    · subst h14; rfl
    by_cases h13 : key = 13
    · subst h13; rfl
    rw [if_neg (by rintro (h | h); exact h14 h; exact h13 h), if_neg]
    intro hge
    have := key.isLt
    have h1 : key.val ≠ 12 := fun h => h12 (Fin.ext h)
    have h2 : key.val ≠ 13 := fun h => h13 (Fin.ext h)
    have h3 : key.val ≠ 14 := fun h => h14 (Fin.ext h)
    have h4 : key.val ≠ 15 := fun h => h15 (Fin.ext h)
    omega

theorem result_lamps {s : Trellis.State} {held : Nat → Bool} (hs : LampsFit s held)
    (e : Trellis.Event) :
    LampsFit (result env s e) (fun k => if e.key.val = k then e.rising else held k) := by
  intro k h hk
  have hs := hs k h hk
  have hp := result_pixels (env := env) s e
  have hp : (result env s e).pixels[k] = (if e.rising then
      s.pixels.set e.key.val (keyLamp e.key.val true)
      else if 12 ≤ e.key.val then s.pixels.set e.key.val (keyLamp e.key.val false)
      else s.pixels)[k] := by rw [hp]
  rw [hp]
  dsimp only
  by_cases hk' : e.key.val = k
  · rw [if_pos hk']
    cases e.rising with
    | true => subst hk'; simp
    | false => subst hk'; simp [h]
  · rw [if_neg hk', ← hs]
    repeat' split
    · exact Vector.getElem_set_ne (by omega) hk hk'
    · exact Vector.getElem_set_ne (by omega) hk hk'
    · rfl

/-- C127: the lamps of the bottom row show which keys are held: the paging keys are dimly lit (left
red, right green) and bright while held, the two others dark and white while held. -/
theorem keypad_lamps (hreg : shippedRegistry .arduino seeds = .ok env.registry)
    {t₀ rand z z' rng h s} (r : Trellis.Run env (Trellis.init env t₀ rand z z' rng) h s)
    {k : Nat} (hk : 12 ≤ k) (hk' : k < 16) :
    s.pixels[k] = keyLamp k (heldAfter k (keyEvents h)) := by
  suffices LampsFit s (fun k => heldAfter k (keyEvents h)) from this k hk hk'
  clear hk hk' k
  induction r with
  | nil =>
    intro k h hk
    have fin : ∀ w, 12 ≤ w → w < 16 → w = 12 ∨ w = 13 ∨ w = 14 ∨ w = 15 := by omega
    rcases fin k h hk with rfl | rfl | rfl | rfl <;>
      simp [Trellis.init, keyLamp, CRGB.black, heldAfter, keyEvents]
  | @cons h s s' inp r hl ih =>
    obtain ⟨h', x⟩ := keypad_is_a_node hreg r
    obtain ⟨node, _, _, hs1, hs2, px, rg, he⟩ := Trellis.loop_ok hreg x.wf hl
    have key : ∀ (l : List Trellis.Event) (s : Trellis.State) (held : Nat → Bool), LampsFit s held →
        LampsFit (l.foldl (result env) s)
          (fun k => l.foldl (fun b e => if e.key.val = k then e.rising else b) (held k)) := by
      intro l
      induction l with
      | nil => intro s held h; exact h
      | cons e l ih =>
        intro s held h
        exact ih _ _ (result_lamps h e)
    have h1 := key inp.events { s with node := node } _ ih
    have e : keyEvents ((s, inp, s') :: h) = keyEvents h ++ inp.events := by simp [keyEvents]
    intro k hk hk'
    have h2 := h1 k hk hk'
    dsimp only
    rw [e, heldAfter, List.foldl_append]
    refine Eq.trans ?_ h2
    have hne : ∀ i ∈ List.finRange 12, i.val ≠ k := fun i _ => by omega
    show s'.pixels[k] = (handled env inp s node).pixels[k]
    have hm : s.mode = .color ∨ s.mode = .effect := by cases s.mode <;> simp
    rcases hm with hm | hm
    · exact (paint_pixels (good := fun _ _ _ => True) (by
        intro s i s' h
        simp only [bind, Except.bind, pure, Except.pure] at h
        split at h
        · cases h; exact ⟨_, _, trivial, rfl⟩
        · split at h
          · cases h
          · cases h; exact ⟨_, _, trivial, rfl⟩) (fun _ _ h => h) nodup_finRange (hs1 hm)).2 k hk' hne
    · exact (paint_pixels (good := fun _ _ _ => True) (by
        intro s i s' h
        simp only [bind, Except.bind, pure, Except.pure] at h
        split at h
        · cases h; exact ⟨_, _, trivial, rfl⟩
        · split at h
          · cases h
          · split at h
            · cases h
            · cases h; exact ⟨_, _, trivial, rfl⟩) (fun _ _ h => h) nodup_finRange (hs2 hm)).2 k hk' hne

/-- A concrete case: the right key held, the left one released. -/
example : ∃ h s, Trellis.Run Demo.env Demo.start h s ∧ heldAfter 15 (keyEvents h) = true ∧
    heldAfter 12 (keyEvents h) = false ∧ s.pixels[15] = ⟨0, 128, 0⟩ ∧ s.pixels[12] = ⟨8, 0, 0⟩ := by
  obtain ⟨h, s, r, hc⟩ := Demo.run_of_check
    (l := [Demo.input 1100 none [Demo.up 12 1100],
      Demo.input 1050 none [Demo.down 12 1050, Demo.down 15 1060]])
    (fun h s => decide (heldAfter 15 (keyEvents h) = true ∧ heldAfter 12 (keyEvents h) = false ∧
      s.pixels[15] = ⟨0, 128, 0⟩ ∧ s.pixels[12] = ⟨8, 0, 0⟩)) (by decide +kernel)
  exact ⟨h, s, r, of_decide_eq_true hc⟩

end Firefly.Props
