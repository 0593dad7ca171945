import Verif.Props.Controller

/-! # What the network part of the controller gets to see (C92) -/

namespace Firefly.Props
open Spec Controller

variable {env : Env}

/-- Where a step of the network part of the controller comes from, in a run with history `h`. -/
def ControllerStep (h : List (State × Input × State)) (e : Entry) : Prop :=
  (∀ now rx, e.op = .radioTick now rx → ∃ x ∈ h, Awake x.1 x.2.1 ∧
    (now = x.2.1.now₁ ∧ rx = x.2.1.rx₁ ∨ now = x.2.1.now₂ ∧ rx = x.2.1.rx₂)) ∧
  ∀ now p, e.op = .setEffect now p → ∃ x ∈ h, Awake x.1 x.2.1 ∧ now = x.2.1.now ∧
    (EffectMode x.2.1 ∧ BroadcastPressed x.2.1 ∨
      (ColourMode x.2.1 ∨ PaletteMode x.2.1) ∧ ∃ side r, FirstPressed x.2.1 side r)

theorem ControllerStep.older {h x e} (k : ControllerStep h e) : ControllerStep (x :: h) e := by
  refine ⟨fun now rx ho => ?_, fun now p ho => ?_⟩
  · obtain ⟨y, hy, z⟩ := k.1 now rx ho
    exact ⟨y, List.mem_cons_of_mem _ hy, z⟩
  · obtain ⟨y, hy, z⟩ := k.2 now p ho
    exact ⟨y, List.mem_cons_of_mem _ hy, z⟩

theorem controller_tick_steps {plat s₀ h' n} {s : State} {inp : Input} {s' : State} {h} {node : Node}
    (ha : Awake s inp) (x : Exec plat s₀ h' n) (old : ∀ e ∈ h', ControllerStep h e)
    (ht : n.tick plat inp.now₁ inp.rx₁ inp.now₂ inp.rx₂ = .ok node) :
    ∃ h'', Exec plat s₀ h'' node ∧ ∀ e ∈ h'', ControllerStep ((s, inp, s') :: h) e := by
  obtain ⟨s₁, h1, ⟨_, h2⟩ | ⟨_, s₂, h2, h3⟩⟩ := Node.tick_eq_ops.1 ht
  · refine ⟨_, .cons _ (.cons _ x h1) h2, fun e he => ?_⟩
    rcases List.mem_cons.1 he with rfl | he
    · exact ⟨nofun, nofun⟩
    rcases List.mem_cons.1 he with rfl | he
    · exact ⟨fun now rx ho => by cases ho; exact ⟨_, List.mem_cons_self, ha, .inl ⟨rfl, rfl⟩⟩, nofun⟩
    · exact (old e he).older
  · refine ⟨_, .cons _ (.cons _ (.cons _ x h1) h2) h3, fun e he => ?_⟩
    rcases List.mem_cons.1 he with rfl | he
    · exact ⟨nofun, nofun⟩
    rcases List.mem_cons.1 he with rfl | he
    · exact ⟨fun now rx ho => by cases ho; exact ⟨_, List.mem_cons_self, ha, .inr ⟨rfl, rfl⟩⟩, nofun⟩
    rcases List.mem_cons.1 he with rfl | he
    · exact ⟨fun now rx ho => by cases ho; exact ⟨_, List.mem_cons_self, ha, .inl ⟨rfl, rfl⟩⟩, nofun⟩
    · exact (old e he).older

/-- **C92.** Every run of the controller program is, seen from the radio, a run of the state machine from power-up, in
which it receives only what the radio offered in an iteration that was not skipped, and gets a local instruction only
when the broadcast button (in effect mode) or a side button (in colour and palette mode) was pressed. -/
theorem controller_inputs {t₀ rand rng gauge h s}
    (r : Controller.Run env (init env t₀ rand rng gauge) h s) :
    ∃ h', Firefly.Run env.plat t₀ h' s.node ∧ ∀ e ∈ h', ControllerStep h e := by
  suffices H : ∃ h', Exec env.plat (Node.init t₀ rand (.heartbeat, Vector.replicate 58 0)
      (.heartbeat, Vector.replicate 58 0)) h' s.node ∧ ∀ e ∈ h', ControllerStep h e by
    obtain ⟨h', x, k⟩ := H
    exact ⟨h', ⟨rand, _, _, x⟩, k⟩
  induction r with
  | nil =>
    refine ⟨_, .cons (.setNumPalettes t₀ numPalettes)
      (.cons (.setNumEffects t₀ env.registry.getNumEffects) .nil rfl) rfl, fun e he => ?_⟩
    rcases List.mem_cons.1 he with rfl | he
    · exact ⟨nofun, nofun⟩
    · rcases List.mem_singleton.1 he with rfl
      exact ⟨nofun, nofun⟩
  | @cons h s s' inp _ hl ih =>
    obtain ⟨h', x, k⟩ := ih
    by_cases ha : Awake s inp
    · obtain ⟨node, ht, hm⟩ := loop_ok ha hl
      obtain ⟨h'', x', k'⟩ := controller_tick_steps (s := s) (s' := s') ha x k ht
      have told : ∀ {p n}, node.setEffect env.plat inp.now p = .ok n →
          (EffectMode inp ∧ BroadcastPressed inp ∨
            (ColourMode inp ∨ PaletteMode inp) ∧ ∃ side r, FirstPressed inp side r) →
          ∃ g, Exec env.plat (Node.init t₀ rand (.heartbeat, Vector.replicate 58 0)
            (.heartbeat, Vector.replicate 58 0)) g n ∧ ∀ e ∈ g, ControllerStep ((s, inp, s') :: h) e := by
        intro p n hn hw
        refine ⟨_, .cons (.setEffect inp.now p) x' hn, fun e he => ?_⟩
        rcases List.mem_cons.1 he with rfl | he
        · exact ⟨nofun, fun now q ho => by cases ho; exact ⟨_, List.mem_cons_self, ha, rfl, hw⟩⟩
        · exact k' e he
      rcases mode_cases inp with h1 | h1 | h1
      · rw [runMode, modeOf_effect h1] at hm
        obtain ⟨s₁, e, y, z, h2, _, _, _, h3⟩ := runEffectMode_ok hm
        have h4 : s'.node = s₁.node := by rw [h3]
        rw [h4]
        have hcase : s₁.node = node ∨
            node.setEffect env.plat inp.now s.setEffectPacket = .ok s₁.node ∧ BroadcastPressed inp := by
          unfold select at h2
          by_cases c0 : inp.left.b0 = true
          · rw [if_pos c0] at h2; split at h2
            · cases h2
            · cases h2; exact .inl rfl
          rw [if_neg c0] at h2
          by_cases c1 : inp.right.b0 = true
          · rw [if_pos c1] at h2; split at h2
            · cases h2
            · cases h2; exact .inl rfl
          rw [if_neg c1] at h2
          by_cases c2 : inp.left.b1 = true
          · rw [if_pos c2] at h2; cases h2; exact .inl rfl
          rw [if_neg c2] at h2
          by_cases c3 : inp.right.b1 = true
          · rw [if_pos c3] at h2; cases h2; exact .inl rfl
          rw [if_neg c3] at h2
          by_cases c4 : inp.bottom.b0 = true
          · rw [if_pos c4] at h2
            simp only [bind, Except.bind] at h2
            split at h2
            · cases h2
            · rename_i n hn; cases h2
              exact .inr ⟨hn, c4, Bool.eq_false_iff.2 c0, Bool.eq_false_iff.2 c1, Bool.eq_false_iff.2 c2,
                Bool.eq_false_iff.2 c3⟩
          · rw [if_neg c4] at h2; cases h2; exact .inl rfl
        rcases hcase with h5 | ⟨h5, h6⟩
        · rw [h5]; exact ⟨_, x', k'⟩
        · exact told h5 (.inl ⟨h1, h6⟩)
      · rw [runMode, modeOf_colour h1] at hm
        obtain ⟨y, _, _, _, h2, h3⟩ := runColorMode_ok hm
        rcases pressed_cases inp with hn | ⟨side, r, hf⟩
        · rw [h2 hn]; exact ⟨_, x', k'⟩
        · exact told (h3 side r hf) (.inr ⟨.inl h1, side, r, hf⟩)
      · rw [runMode, modeOf_palette h1] at hm
        obtain ⟨y, _, _, _, h2, h3⟩ := runPaletteMode_ok hm
        rcases pressed_cases inp with hn | ⟨side, r, hf⟩
        · rw [(h2 hn).1]; exact ⟨_, x', k'⟩
        · exact told (h3 side r hf).2 (.inr ⟨.inr h1, side, r, hf⟩)
    · rw [loop_asleep ha] at hl
      cases hl
      exact ⟨h', x, fun e he => (k e he).older⟩

/-- C92: a controller whose buttons nobody touches gets no local instruction: what it announces as a master was announced
to it by another device or chosen by the state machine itself. -/
theorem controller_untouched {t₀ rand rng gauge h s}
    (r : Controller.Run env (init env t₀ rand rng gauge) h s)
    (quiet : ∀ x ∈ h, ¬ BroadcastPressed x.2.1 ∧ NonePressed x.2.1) :
    ∃ h', Firefly.Run env.plat t₀ h' s.node ∧ ∀ e ∈ h', ∀ now p, e.op ≠ .setEffect now p := by
  obtain ⟨h', x, k⟩ := controller_inputs r
  refine ⟨h', x, fun e he now p ho => ?_⟩
  obtain ⟨y, hy, _, _, ⟨_, hb⟩ | ⟨_, side, b, hf⟩⟩ := (k e he).2 now p ho
  · exact (quiet y hy).1 hb
  · exact absurd hf.1 (by simp [(quiet y hy).2 side b])

/-- A run in which the controller is first left alone and then told to broadcast its selection. -/
example : ∃ h s, Controller.Run Demo.env Demo.start h s ∧ h.length = 2 ∧
    (∃ x ∈ h, Awake x.1 x.2.1 ∧ EffectMode x.2.1 ∧ BroadcastPressed x.2.1) ∧ s.node.sent ≠ [] := by
  obtain ⟨h, s, r, c⟩ := Demo.run_of_check
    (l := [{ Demo.quiet 1200 900 with bottom := Demo.first3 }, Demo.quiet 1150 900])
    (fun h s => decide (h.length = 2 ∧
      (∃ x ∈ h, Awake x.1 x.2.1 ∧ EffectMode x.2.1 ∧ BroadcastPressed x.2.1) ∧ s.node.sent ≠ []))
    (by decide +kernel)
  exact ⟨h, s, r, of_decide_eq_true c⟩

end Firefly.Props
