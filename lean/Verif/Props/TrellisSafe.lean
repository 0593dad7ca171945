import Verif.Props.Trellis

/-! # The key pad does not crash (C127) -/

namespace Firefly.Props
open Spec Trellis

variable {env : Trellis.Env} {seeds : EffectSeeds}

/-! ### Safety -/

/-- What keeps the display of the pad from leaving the palette table. -/
structure Tame (n : Node) : Prop where
  wf : n.WF
  pal : n.setEffectPacket.data[2].toNat < 22
  palettes : n.numPalettes = 22
  effects : n.numEffects ≠ 0

theorem Tame.step {s s' : Node} (g : Tame s) {now rx}
    (hrx : ∀ p, rx = some p → IsInstruction p → p.data[2].toNat < 22)
    (h : Op.step .arduino (.radioTick now rx) s = .ok s') : Tame s' := by
  have wf' := Node.step_wf g.wf h
  have hc := Node.step_counts g.wf h
  have hp : s'.numPalettes = 22 := hc.1.trans g.palettes
  have he : s'.numEffects ≠ 0 := by rw [hc.2]; exact g.effects
  have heard := fun p => heard_rx (s' := s') (now := now) (rx := rx) (p := p) g.wf
  refine ⟨wf', ?_, hp, he⟩
  cases in_step g.wf h with
  | keep _ _ hc => rw [hc]; exact g.pal
  | takeOver _ _ _ _ hc => rw [hc]; exact g.pal
  | locally p hop => cases hop
  | slaveHeard p hh hi _ _ hc => rw [hc]; exact hrx p (heard p hh) hi
  | masterHeard p hh hi _ _ hc => rw [hc]; exact hrx p (heard p hh) hi
  | change q hf =>
    have h2 := (fresh_choice_in_range hf g.effects
      (by show s.numPalettes ≠ 0; rw [g.palettes]; decide)).2
    have h3 : s'.setEffectPacket.data = q.data := hf.adopted.2.2
    rw [h3]
    refine Nat.lt_of_lt_of_eq h2 ?_
    show s.numPalettes.toNat = 22
    rw [g.palettes]; rfl
  | repeats q hf =>
    have h2 : s'.setEffectPacket.data = s.setEffectPacket.data := hf.kept.2.2
    rw [h2]; exact g.pal

theorem Tame.tick {s : Node} (g : Tame s) {now₁ rx₁ now₂ rx₂}
    (h₁ : ∀ p, rx₁ = some p → IsInstruction p → p.data[2].toNat < 22)
    (h₂ : ∀ p, rx₂ = some p → IsInstruction p → p.data[2].toNat < 22) :
    ∃ s', s.tick .arduino now₁ rx₁ now₂ rx₂ = .ok s' ∧ Tame s' := by
  have total : ∀ {n : Node} now rx, n.WF → ∃ n', Op.step .arduino (.radioTick now rx) n = .ok n' := by
    intro n now rx wf
    rcases Node.radioTick_result (plat := .arduino) (now := now) (rx := rx) wf with
      ⟨s', h2, _⟩ | ⟨h, _⟩ | ⟨h, _⟩
    · exact ⟨s', h2⟩
    · cases h
    · cases h
  have ends : ∀ {n : Node}, Tame n → Tame { n with tickRun := true } := fun g =>
    ⟨⟨g.wf.idx, g.wf.next, g.wf.timerNone⟩, g.pal, g.palettes, g.effects⟩
  obtain ⟨s₁, e₁⟩ := total now₁ rx₁ g.wf
  have g₁ := g.step h₁ e₁
  cases ht : s₁.tickRun with
  | false => exact ⟨_, Node.tick_eq_ops.2 ⟨s₁, e₁, .inl ⟨ht, rfl⟩⟩, ends g₁⟩
  | true =>
    obtain ⟨s₂, e₂⟩ := total now₂ rx₂ g₁.wf
    exact ⟨_, Node.tick_eq_ops.2 ⟨s₁, e₁, .inr ⟨ht, s₂, e₂, rfl⟩⟩, ends (g₁.step h₂ e₂)⟩

theorem Tame.after {n : Node} (g : Tame n) (now : U32) {p : Packet} (hp : p.data[2].toNat < 22) :
    Tame (n.afterSetEffect .arduino now p) :=
  ⟨wf_after g.wf _ _, hp, g.palettes, g.effects⟩

theorem Tame.result {s : Trellis.State} (g : Tame s.node) (e : Trellis.Event) :
    Tame (Trellis.result env s e).node := by
  have key : ∀ a b c, c.toNat < 22 → ((blank.writeSetEffect a b c).data[2]).toNat < 22 := by
    intro a b c h; simpa [Packet.writeSetEffect] using h
  have two : ∀ {p : Packet}, p.data[2].toNat < 22 → Tame (twice e p s.node) := fun hp =>
    (g.after e.now hp).after e.later hp
  unfold Trellis.result release
  repeat' split
  all_goals first
    | exact g
    | exact g.after _ (key _ _ _ (by decide))
    | (rename_i h; exact two (key _ _ _ h))
    | exact two (key _ _ _ g.pal)

theorem foldl_tame (l : List Trellis.Event) {s : Trellis.State} (g : Tame s.node) :
    Tame (l.foldl (result env) s).node := by
  induction l generalizing s with
  | nil => exact g
  | cons e l ih => exact ih (g.result e)

theorem paint_total {f : Trellis.State → Fin 12 → Except Fault Trellis.State}
    (hf : ∀ s i, Tame s.node → ∃ s', f s i = .ok s' ∧ s'.node = s.node)
    (l : List (Fin 12)) {s : Trellis.State} (g : Tame s.node) : ∃ s', l.foldlM f s = .ok s' := by
  induction l generalizing s with
  | nil => exact ⟨s, rfl⟩
  | cons i l ih =>
    obtain ⟨s₁, e, h⟩ := hf s i g
    obtain ⟨s₂, e₂⟩ := ih (s := s₁) (by rw [h]; exact g)
    exact ⟨s₂, by rw [List.foldlM_cons, e]; exact e₂⟩

theorem keypad_iteration (hreg : shippedRegistry .arduino seeds = .ok env.registry)
    {s : Trellis.State} (g : Tame s.node) (inp : Trellis.Input)
    (h : ∀ p, some p ∈ [inp.rx₁, inp.rx₂] → IsInstruction p → p.data[2].toNat < 22) :
    ∃ s', Trellis.loop env inp s = .ok s' ∧ Tame s'.node := by
  obtain ⟨node, ht, gn⟩ := g.tick (now₁ := inp.now₁) (rx₁ := inp.rx₁) (now₂ := inp.now₂)
    (rx₂ := inp.rx₂) (fun p hp => h p (by simp [hp])) (fun p hp => h p (by simp [hp]))
  obtain ⟨h1, _, _⟩ := foldlM_handle hreg inp.events (s := { s with node := node }) gn.wf
  have g₁ := foldl_tame (env := env) inp.events (s := { s with node := node }) gn
  have hrgb : ∀ {e : Effect} (t : U32) {p : Packet} (rng : U16), e ≠ .control ∧ e ≠ .simpleBlink 0 →
      p.data[2].toNat < 22 → ∃ r, e.getRGB env.F .arduino 0 t kStrip p rng = .ok r :=
    fun t p rng he hp => getRGB_total env.F _ (led := 0) t rng he (by decide) (by decide) hp
  have hex : ∃ s', Trellis.loop env inp s = .ok s' := by
    unfold Trellis.loop
    simp only [bind, Except.bind, ht]
    unfold Trellis.run
    cases hm : s.mode with
    | color =>
      simp only [hm, numPalettes_eq hreg, bind, Except.bind] at h1 ⊢
      rw [h1]
      refine paint_total ?_ _ (by rw [hm] at g₁; exact g₁)
      intro s i gs
      simp only [bind, Except.bind, pure, Except.pure]
      split
      · exact ⟨_, rfl, rfl⟩
      · rename_i hge
        obtain ⟨r, hr⟩ := hrgb (e := .displayColorPalette) (s.node.getNetworkMillis (inp.clock i.val))
          (p := blank.writeSetEffect 0 0 (itemOf s.palettePage i.val)) s.rng (by simp) (by
            have : (blank.writeSetEffect 0 0 (itemOf s.palettePage i.val)).data[2] =
              itemOf s.palettePage i.val := by simp [Packet.writeSetEffect]
            rw [this]
            rw [BitVec.le_def] at hge
            exact Nat.lt_of_not_le hge)
        rw [hr]
        exact ⟨_, rfl, rfl⟩
    | effect =>
      simp only [hm, bind, Except.bind] at h1 ⊢
      rw [h1]
      refine paint_total ?_ _ (by rw [hm] at g₁; exact g₁)
      intro s i gs
      simp only [bind, Except.bind, pure, Except.pure]
      split
      · exact ⟨_, rfl, rfl⟩
      · rename_i hge
        rw [numUnique_eq hreg, BitVec.le_def] at hge
        have hlt : (itemOf s.effectPage i.val).toNat < 19 := Nat.lt_of_not_le hge
        rw [slotOf_eq hreg _ hlt, slotOf_lookup hreg hlt]
        obtain ⟨r, hr⟩ := hrgb (s.node.getNetworkMillis (inp.clock i.val)) (p := s.node.getSetEffect)
          s.rng (shipped_effects_regular seeds (List.getElem_mem
            (h := (show (itemOf s.effectPage i.val).toNat <
              (distinctEffects (shippedEffects seeds)).length from hlt)))) gs.pal
        dsimp only
        split
        · rename_i herr
          cases hr.symm.trans herr
        · exact ⟨_, rfl, rfl⟩
  obtain ⟨s', hs'⟩ := hex
  refine ⟨s', hs', ?_⟩
  obtain ⟨node', ht', _, _, _, p, r, rfl⟩ := Trellis.loop_ok hreg g.wf hs'
  rw [ht] at ht'
  cases ht'
  exact g₁

/-- C127: with the shipped effects, whatever keys are pressed and whatever is heard, the pad never
runs into undefined behaviour as long as the third byte of every instruction it hears (the palette
of an effect, the green part of a colour) is below 22. -/
theorem keypad_never_faults (hreg : shippedRegistry .arduino seeds = .ok env.registry)
    {t₀ rand z z' rng h s} (r : Trellis.Run env (Trellis.init env t₀ rand z z' rng) h s)
    (hh : ∀ x ∈ h, ∀ p, some p ∈ [x.2.1.rx₁, x.2.1.rx₂] → IsInstruction p → p.data[2].toNat < 22)
    (inp : Trellis.Input)
    (hi : ∀ p, some p ∈ [inp.rx₁, inp.rx₂] → IsInstruction p → p.data[2].toNat < 22) :
    ∃ s', Trellis.loop env inp s = .ok s' := by
  have key : Tame s.node := by
    clear hi
    induction r with
    | nil =>
      obtain ⟨_, x⟩ := keypad_init_run (env := env) (t₀ := t₀) (rand := rand) (z := z) (z' := z')
        (rng := rng)
      refine ⟨x.wf, ?_, ?_, ?_⟩
      · have : (Trellis.init env t₀ rand z z' rng).node.setEffectPacket.data[2] = 0 := by
          simp [Trellis.init, Node.init, Packet.writeSetEffect, Node.setNumEffects,
            Node.setNumPalettes]
        rw [this]; decide
      · show BitVec.ofNat 8 Firefly.palettes.length = 22; decide +kernel
      · obtain ⟨r, e, hn, _⟩ := shipped_registry .arduino seeds
        rw [hreg] at e
        cases e
        show env.registry.getNumEffects ≠ 0
        rw [hn]; decide
    | @cons h s s' inp _ hl ih =>
      obtain ⟨s'', e, g⟩ := keypad_iteration hreg (ih fun x hx => hh x (List.mem_cons_of_mem _ hx))
        inp (hh _ List.mem_cons_self)
      rw [hl] at e
      cases e
      exact g
  obtain ⟨s', e, _⟩ := keypad_iteration hreg key inp hi
  exact ⟨s', e⟩

/-- A concrete case: the pad runs on through presses and releases of keys of every kind and an
instruction with palette 21. -/
example : ∃ h s, Trellis.Run Demo.env Demo.start h s ∧ h.length = 4 ∧
    ∀ x ∈ h, ∀ p, some p ∈ [x.2.1.rx₁, x.2.1.rx₂] → IsInstruction p → p.data[2].toNat < 22 := by
  have hc : ((Demo.runList Demo.env Demo.start
      [Demo.input 1300 none [Demo.down 13 1300, Demo.down 13 1310],
       Demo.input 1200 none [Demo.up 15 1200, Demo.down 4 1210],
       Demo.input 1100 (some { blank.writeSetEffect 3 60 21 with id := 9 }) [Demo.down 15 1100],
       Demo.input 1050 none [Demo.down 14 1050]]).any fun x =>
        decide (x.1.length = 4) && x.1.all fun y => [y.2.1.rx₁, y.2.1.rx₂].all fun o =>
          o.all fun p => decide (p.data[2].toNat < 22)) = true := by decide +kernel
  obtain ⟨h, s, r, hc⟩ := Demo.run_of_check (fun h _ => decide (h.length = 4) && h.all fun y =>
    [y.2.1.rx₁, y.2.1.rx₂].all fun o => o.all fun p : Packet => decide (p.data[2].toNat < 22)) hc
  rw [Bool.and_eq_true, decide_eq_true_eq, List.all_eq_true] at hc
  refine ⟨h, s, r, hc.1, fun x hx p hp _ => ?_⟩
  have := List.all_eq_true.1 (hc.2 x hx) _ hp
  simpa using this

/-- C127 (refutation).  While the current instruction is a colour whose green part is 22 or more,
the pad reads outside the palette table in every quiet iteration in which it offers the first page
of effects. -/
theorem keypad_colour_faults (hreg : shippedRegistry .arduino seeds = .ok env.registry)
    {s : Trellis.State} {inp : Trellis.Input} {node : Node}
    (ht : s.node.tick .arduino inp.now₁ inp.rx₁ inp.now₂ inp.rx₂ = .ok node)
    (hq : inp.events = []) (hm : s.mode = .effect) (h0 : s.effectPage = 0)
    {delay : U8} {c : CRGB} (hf : FollowsColour node delay c) (hg : 22 ≤ c.g.toNat) :
    Trellis.loop env inp s = .error .outOfBounds := by
  unfold Trellis.loop
  simp only [bind, Except.bind, ht]
  unfold Trellis.run
  simp only [hm, hq, List.foldlM_nil, pure, Except.pure, bind, Except.bind]
  unfold showEffects
  have hl : List.finRange 12 = (0 : Fin 12) :: (List.finRange 12).tail := by decide
  have hi : itemOf s.effectPage (0 : Fin 12).val = 0 := by rw [h0]; decide
  have hlook : env.registry.getEffect .arduino (env.registry.uniqueEffectNumberToIndex 0) =
      .ok .colorCycle := by
    rw [slotOf_eq hreg 0 (by decide)]
    exact slotOf_lookup hreg (k := 0) (by decide)
  rw [hl, List.foldlM_cons]
  simp only [hi, numUnique_eq hreg, hlook, bind, Except.bind]
  rw [if_neg (by decide)]
  have hfault := palette_out_of_range env.F .arduino .colorCycle 0
    (node.getNetworkMillis (inp.clock (0 : Fin 12).val)) kStrip node.getSetEffect s.rng
    (.inl (by simp)) nofun (by rw [hf.2.2.2.1]; exact hg)
  simp only [Effect.getRGB, hfault, Except.map]

/-- A concrete case: the pad offers effects and hears the instruction to show (0, 22, 0). -/
example : ∃ h s node, Trellis.Run Demo.env Demo.start h s ∧
    s.node.tick .arduino 1100 (some (Demo.colour 9 60 0 22 0)) 1100 none = .ok node ∧
    s.mode = .effect ∧ s.effectPage = 0 ∧ FollowsColour node 60 ⟨0, 22, 0⟩ ∧
    Trellis.loop Demo.env (Demo.input 1100 (some (Demo.colour 9 60 0 22 0)) []) s =
      .error .outOfBounds := by
  have hc : ((Demo.runList Demo.env Demo.start [Demo.input 1050 none [Demo.down 14 1050]]).any
      fun x => match x.2.node.tick .arduino 1100 (some (Demo.colour 9 60 0 22 0)) 1100 none with
        | .ok node => decide (x.2.mode = .effect ∧ x.2.effectPage = 0 ∧
            FollowsColour node 60 ⟨0, 22, 0⟩)
        | .error _ => false) = true := by decide +kernel
  obtain ⟨h, s, r, hc⟩ := Demo.run_of_check (fun _ s =>
    match s.node.tick .arduino 1100 (some (Demo.colour 9 60 0 22 0)) 1100 none with
        | .ok node => decide (s.mode = .effect ∧ s.effectPage = 0 ∧
            FollowsColour node 60 ⟨0, 22, 0⟩)
        | .error _ => false) hc
  split at hc
  · rename_i node ht
    obtain ⟨h1, h2, h3⟩ := of_decide_eq_true hc
    exact ⟨h, s, node, r, ht, h1, h2, h3,
      keypad_colour_faults Demo.env_shipped (inp := Demo.input 1100 _ []) ht rfl h1 h2 h3 (by decide)⟩
  · cases hc

end Firefly.Props
