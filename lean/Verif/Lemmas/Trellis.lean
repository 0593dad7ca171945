import Verif.Spec.Trellis
import Verif.Props.Controller

/-! # Lemmas about the key pad -/

namespace Firefly.Trellis
open Spec Props

variable {env : Env} {seeds : EffectSeeds}

theorem shipped_total {r : Registry Effect} (hreg : shippedRegistry .arduino seeds = .ok r)
    (i : U8) : ∃ e, r.getEffect .arduino i = .ok e := by
  obtain ⟨r', e, h⟩ := lookup_total_arduino (shippedEffects seeds)
    (by rw [show (allSlots (shippedEffects seeds)).length = 35 from rfl]; decide)
    (by rw [show (allSlots (shippedEffects seeds)).length = 35 from rfl]; decide)
  have e' : Registry.empty.addAll .arduino (shippedEffects seeds) = .ok r := hreg
  rw [e'] at e; cases e
  exact ⟨_, h i⟩

theorem numPalettes_eq (hreg : shippedRegistry .arduino seeds = .ok env.registry) (n : Node) :
    numPalettes env n = .ok 22 := by
  have : ∃ e, getCurrentEffect .arduino env.registry n.getSetEffect = .ok e := by
    unfold getCurrentEffect
    split
    · exact ⟨_, rfl⟩
    · simp only [Packet.readEffectIndexFromSetEffect, hostAssert, bind, Except.bind, pure,
        Except.pure]
      exact shipped_total hreg _
  obtain ⟨e, h⟩ := this
  simp only [numPalettes, h, bind, Except.bind]
  rfl

theorem numUnique_eq (hreg : shippedRegistry .arduino seeds = .ok env.registry) :
    env.registry.getNumUniqueEffects = 19 :=
  (Controller.shipped_of (env := ⟨FastLED.reference, .arduino, env.registry⟩) hreg).unique

theorem numPages_palettes : numPages 22 = 2 := by decide
theorem numPages_effects : numPages 19 = 2 := by decide

theorem numPages_toNat (n : U8) : (numPages n).toNat = (n.toNat + 11) / 12 := by
  have hn := n.isLt
  have hk : kChooserPageSize = 12 := rfl
  unfold numPages
  by_cases h : n.toNat % kChooserPageSize > 0
  · rw [if_pos h, BitVec.toNat_ofNat]; rw [hk] at h ⊢; omega
  · rw [if_neg h, BitVec.toNat_ofNat]; rw [hk] at h ⊢; omega

theorem itemOf_toNat {page : U8} {key : Nat} (hp : page.toNat < 2) (hk : key < 16) :
    (itemOf page key).toNat = 12 * page.toNat + key := by
  have : kChooserPageSize = 12 := rfl
  rw [itemOf, BitVec.toNat_ofNat, this]
  omega

/-- Two `SetEffect` calls. -/
def twice (e : Event) (p : Packet) (n : Node) : Node :=
  (n.afterSetEffect .arduino e.now p).afterSetEffect .arduino e.later p

theorem setEffect_ok {n : Node} (hi : n.nm.idx.toNat < 5) (now : U32) (p : Packet) :
    n.setEffect .arduino now p = .ok (n.afterSetEffect .arduino now p) := by
  rw [Node.setEffect_eq hi, if_neg (by rintro ⟨h, _⟩; cases h)]

theorem wf_after {n : Node} (wf : n.WF) (now : U32) (p : Packet) :
    (n.afterSetEffect .arduino now p).WF :=
  Node.step_wf (op := .setEffect now p) wf (setEffect_ok wf.idx now p)

theorem twice_wf {n : Node} (wf : n.WF) (e : Event) (p : Packet) : (twice e p n).WF :=
  wf_after (wf_after wf _ _) _ _

theorem sendTwice_eq {s : State} (wf : s.node.WF) (e : Event) (p : Packet) :
    sendTwice e p s = .ok { s with node := twice e p s.node } := by
  simp only [sendTwice, bind, Except.bind, setEffect_ok wf.idx, setEffect_ok (wf_after wf _ _).idx,
    pure, Except.pure]
  rfl

/-- The instruction ordered by the key that turns the lights off. -/
def darkOrder (env : Env) : Packet :=
  blank.writeSetEffect (env.registry.uniqueEffectNumberToIndex 18) 60 0

/-- The effect that accompanies a chosen palette. -/
def accompanying (env : Env) (n : Node) : U8 :=
  if n.getSetEffect.data[0].toNat + 1 =
      env.registry.getNumEffects.toNat + env.registry.getNumNonRandomEffects.toNat
  then n.getSetEffect.data[0] - 1 else n.getSetEffect.data[0]

/-- The state after a key event. -/
def result (env : Env) (s : State) (e : Event) : State :=
  if e.rising then
    if e.key = 13 then
      { s with
        pixels := s.pixels.set 13 ⟨128, 128, 128⟩
        mode := .color
        node := if s.mode = .color then s.node.afterSetEffect .arduino e.now (darkOrder env)
          else s.node }
    else if e.key = 14 then
      { s with pixels := s.pixels.set 14 ⟨128, 128, 128⟩, mode := .effect }
    else if e.key = 12 then
      match s.mode with
      | .color => { s with
          pixels := s.pixels.set 12 ⟨128, 0, 0⟩
          palettePage := BitVec.ofNat 8 (((s.palettePage - 1).toNat % 2 + 2) % 2) }
      | .effect => { s with
          pixels := s.pixels.set 12 ⟨128, 0, 0⟩
          effectPage := BitVec.ofNat 8 (((s.effectPage - 1).toNat % 2 + 2) % 2) }
    else if e.key = 15 then
      match s.mode with
      | .color => { s with
          pixels := s.pixels.set 15 ⟨0, 128, 0⟩
          palettePage := BitVec.ofNat 8 ((s.palettePage.toNat + 1) % 2) }
      | .effect => { s with
          pixels := s.pixels.set 15 ⟨0, 128, 0⟩
          effectPage := BitVec.ofNat 8 ((s.effectPage.toNat + 1) % 2) }
    else
      match s.mode with
      | .color => { s with
          pixels := s.pixels.set e.key.val ⟨128, 128, 128⟩
          node := if itemOf s.palettePage e.key.val < 22 then
            twice e (blank.writeSetEffect (accompanying env s.node) 60
              (itemOf s.palettePage e.key.val)) s.node else s.node }
      | .effect => { s with
          pixels := s.pixels.set e.key.val ⟨128, 128, 128⟩
          node := if itemOf s.effectPage e.key.val < 19 then
            twice e (blank.writeSetEffect
              (env.registry.uniqueEffectNumberToIndex (itemOf s.effectPage e.key.val)) 60
              s.node.getSetEffect.data[2]) s.node else s.node }
  else release e s

theorem handle_eq (hreg : shippedRegistry .arduino seeds = .ok env.registry) {s : State}
    (wf : s.node.WF) (e : Event) : handle env s e = .ok (result env s e) := by
  unfold handle result
  cases e.rising with
  | false =>
    simp only [Bool.false_eq_true, if_false, numPalettes_eq hreg, bind, Except.bind, pure, Except.pure]
  | true =>
    simp only [if_true, press, numPalettes_eq hreg, numUnique_eq hreg, bind, Except.bind, pure,
      Except.pure, show ((19 : U8) - 1) = 18 from rfl, show kEffectDelay = 60 from rfl]
    by_cases h13 : e.key = 13
    · simp only [if_pos h13]
      cases hm : s.mode with
      | color =>
        simp only [if_true]
        rw [setEffect_ok wf.idx]
        rfl
      | effect => simp
    simp only [if_neg h13]
    by_cases h14 : e.key = 14
    · simp only [if_pos h14]
    simp only [if_neg h14]
    by_cases h12 : e.key = 12
    · simp only [if_pos h12]
      cases hm : s.mode with
      | color => rfl
      | effect => rfl
    simp only [if_neg h12]
    by_cases h15 : e.key = 15
    · simp only [if_pos h15]
      cases hm : s.mode with
      | color => rfl
      | effect => rfl
    simp only [if_neg h15, choose]
    cases hm : s.mode with
    | color =>
      dsimp only
      split
      · simp only [Packet.readEffectIndexFromSetEffect, hostAssert, bind, Except.bind, pure, Except.pure]
        rw [sendTwice_eq (by exact wf)]
        have : ∀ a b c : Nat, ((a : Int) = (b : Int) + (c : Int) - 1) ↔ a + 1 = b + c := by
          intro a b c; omega
        simp only [accompanying, this]
        rfl
      · rfl
    | effect =>
      dsimp only
      rw [numUnique_eq hreg]
      split
      · simp only [Packet.readPaletteIndexFromSetEffect, hostAssert, bind, Except.bind, pure, Except.pure]
        rw [sendTwice_eq (by exact wf)]
        rfl
      · rfl

theorem result_exec (s : State) (wf : s.node.WF) (e : Event) :
    ∃ h, Exec .arduino s.node h (result env s e).node := by
  have one : ∀ p, ∃ h, Exec .arduino s.node h (s.node.afterSetEffect .arduino e.now p) := fun p =>
    ⟨_, .cons (.setEffect e.now p) .nil (setEffect_ok wf.idx _ _)⟩
  have two : ∀ p, ∃ h, Exec .arduino s.node h (twice e p s.node) := fun p =>
    ⟨_, .cons (.setEffect e.later p) (.cons (.setEffect e.now p) .nil (setEffect_ok wf.idx _ _))
      (setEffect_ok (wf_after wf _ _).idx _ _)⟩
  unfold result release
  repeat' split
  all_goals first
    | exact ⟨_, .nil⟩
    | exact one _
    | exact two _

theorem result_wf {s : State} (wf : s.node.WF) (e : Event) : (result env s e).node.WF := by
  obtain ⟨h, x⟩ := result_exec (env := env) s wf e
  exact Exec.wf wf x

theorem foldlM_handle (hreg : shippedRegistry .arduino seeds = .ok env.registry)
    (l : List Event) {s : State} (wf : s.node.WF) :
    l.foldlM (handle env) s = .ok (l.foldl (result env) s) ∧
      (l.foldl (result env) s).node.WF ∧
      ∃ h, Exec .arduino s.node h (l.foldl (result env) s).node := by
  induction l generalizing s with
  | nil => exact ⟨rfl, wf, _, .nil⟩
  | cons e l ih =>
    obtain ⟨h1, h2, h3, x⟩ := ih (result_wf (env := env) wf e)
    obtain ⟨h4, x'⟩ := result_exec (env := env) s wf e
    refine ⟨?_, h2, _, exec_append x' x⟩
    rw [List.foldlM_cons, handle_eq hreg wf]
    exact h1

/-- A loop that only changes the pixels and the random generator. -/
theorem paint_keeps {f : State → Fin 12 → Except Fault State}
    (hf : ∀ {s i s'}, f s i = .ok s' → ∃ p r, s' = { s with pixels := p, rng := r })
    (l : List (Fin 12)) {s s' : State} (h : l.foldlM f s = .ok s') :
    ∃ p r, s' = { s with pixels := p, rng := r } := by
  induction l generalizing s with
  | nil => cases h; exact ⟨_, _, rfl⟩
  | cons i l ih =>
    rw [List.foldlM_cons] at h
    simp only [bind, Except.bind] at h
    split at h
    · cases h
    · rename_i s₁ h1
      obtain ⟨p, r, rfl⟩ := hf h1
      obtain ⟨p', r', rfl⟩ := ih h
      exact ⟨_, _, rfl⟩

theorem showPalettes_keeps {n : U8} {clock : Nat → U32} {s s' : State}
    (h : showPalettes env n clock s = .ok s') : ∃ p r, s' = { s with pixels := p, rng := r } := by
  refine paint_keeps ?_ _ h
  intro s i s' h
  simp only [bind, Except.bind, pure, Except.pure] at h
  split at h
  · cases h; exact ⟨_, _, rfl⟩
  · split at h
    · cases h
    · cases h; exact ⟨_, _, rfl⟩

theorem showEffects_keeps {clock : Nat → U32} {s s' : State}
    (h : showEffects env clock s = .ok s') : ∃ p r, s' = { s with pixels := p, rng := r } := by
  refine paint_keeps ?_ _ h
  intro s i s' h
  simp only [bind, Except.bind, pure, Except.pure] at h
  split at h
  · cases h; exact ⟨_, _, rfl⟩
  · split at h
    · cases h
    · split at h
      · cases h
      · cases h; exact ⟨_, _, rfl⟩

/-- The state after the radio ticks and the key events of an iteration. -/
def handled (env : Env) (inp : Input) (s : State) (node : Node) : State :=
  inp.events.foldl (result env) { s with node := node }

/-- What an iteration does before and after showing the choices. -/
theorem loop_ok (hreg : shippedRegistry .arduino seeds = .ok env.registry) {s s' : State}
    {inp : Input} (wf : s.node.WF) (h : loop env inp s = .ok s') :
    ∃ node, s.node.tick .arduino inp.now₁ inp.rx₁ inp.now₂ inp.rx₂ = .ok node ∧ node.WF ∧
      (s.mode = .color → showPalettes env 22 inp.clock (handled env inp s node) = .ok s') ∧
      (s.mode = .effect → showEffects env inp.clock (handled env inp s node) = .ok s') ∧
      ∃ p r, s' = { handled env inp s node with pixels := p, rng := r } := by
  unfold loop at h
  simp only [bind, Except.bind] at h
  split at h
  · cases h
  · rename_i node hn
    have wf' : node.WF := by
      obtain ⟨h', x, _⟩ := (Exec.nil (plat := .arduino) (s₀ := s.node)).tick hn
      exact Exec.wf wf x
    obtain ⟨h1, _, _⟩ := foldlM_handle hreg inp.events (s := { s with node := node }) wf'
    refine ⟨node, hn, wf', ?_⟩
    unfold run at h
    cases hm : s.mode with
    | color =>
      simp only [hm, numPalettes_eq hreg, bind, Except.bind] at h
      simp only [hm] at h1
      rw [h1] at h
      dsimp only at h
      have h' : showPalettes env 22 inp.clock (handled env inp s node) = .ok s' := by
        rw [handled]; simp only [hm]; exact h
      exact ⟨fun _ => h', nofun, showPalettes_keeps h'⟩
    | effect =>
      simp only [hm, bind, Except.bind] at h
      simp only [hm] at h1
      rw [h1] at h
      dsimp only at h
      have h' : showEffects env inp.clock (handled env inp s node) = .ok s' := by
        rw [handled]; simp only [hm]; exact h
      exact ⟨nofun, fun _ => h', showEffects_keeps h'⟩

end Firefly.Trellis
