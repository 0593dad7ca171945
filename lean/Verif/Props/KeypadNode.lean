import Verif.Props.Trellis

/-! # What the network part of the key pad gets to see (C124) -/

namespace Firefly.Props
open Spec Trellis

variable {env : Trellis.Env} {seeds : EffectSeeds}

/-- Where a step of the network part of the key pad comes from, in a run with history `h`. -/
def KeypadStep (h : List (Trellis.State × Trellis.Input × Trellis.State)) (e : Entry) : Prop :=
  (∀ now rx, e.op = .radioTick now rx → ∃ x ∈ h,
    now = x.2.1.now₁ ∧ rx = x.2.1.rx₁ ∨ now = x.2.1.now₂ ∧ rx = x.2.1.rx₂) ∧
  ∀ now p, e.op = .setEffect now p → ∃ x ∈ h, ∃ k ∈ x.2.1.events, k.rising = true ∧ k.key.val ≤ 13 ∧ k.key.val ≠ 12 ∧
    (now = k.now ∨ now = k.later) ∧ p.type = .setEffect ∧ p.len = 3 ∧ p.data[1] = 60

theorem KeypadStep.older {h x e} (k : KeypadStep h e) : KeypadStep (x :: h) e := by
  refine ⟨fun now rx ho => ?_, fun now p ho => ?_⟩
  · obtain ⟨y, hy, z⟩ := k.1 now rx ho
    exact ⟨y, List.mem_cons_of_mem _ hy, z⟩
  · obtain ⟨y, hy, z⟩ := k.2 now p ho
    exact ⟨y, List.mem_cons_of_mem _ hy, z⟩

/-- The steps a key event leads to. -/
def KeyStep (k : Trellis.Event) (e : Entry) : Prop :=
  ∃ now p, e.op = .setEffect now p ∧ k.rising = true ∧ k.key.val ≤ 13 ∧ k.key.val ≠ 12 ∧
    (now = k.now ∨ now = k.later) ∧ p.type = .setEffect ∧ p.len = 3 ∧ p.data[1] = 60

theorem keypad_key_steps (s : Trellis.State) (wf : s.node.WF) (e : Trellis.Event) :
    ∃ h, Exec .arduino s.node h (result env s e).node ∧ ∀ x ∈ h, KeyStep e x := by
  have one : ∀ a b, e.rising = true → e.key.val ≤ 13 → e.key.val ≠ 12 →
      ∃ h, Exec .arduino s.node h (s.node.afterSetEffect .arduino e.now (blank.writeSetEffect a 60 b)) ∧
        ∀ x ∈ h, KeyStep e x := fun a b h1 h2 h3 =>
    ⟨_, .cons (.setEffect e.now _) .nil (setEffect_ok wf.idx _ _), fun x hx => by
      rcases List.mem_singleton.1 hx with rfl
      exact ⟨_, _, rfl, h1, h2, h3, .inl rfl, rfl, rfl, rfl⟩⟩
  have two : ∀ a b, e.rising = true → e.key.val ≤ 13 → e.key.val ≠ 12 →
      ∃ h, Exec .arduino s.node h (twice e (blank.writeSetEffect a 60 b) s.node) ∧
        ∀ x ∈ h, KeyStep e x := fun a b h1 h2 h3 =>
    ⟨_, .cons (.setEffect e.later _) (.cons (.setEffect e.now _) .nil (setEffect_ok wf.idx _ _))
      (setEffect_ok (wf_after wf _ _).idx _ _), fun x hx => by
      rcases List.mem_cons.1 hx with rfl | hx
      · exact ⟨_, _, rfl, h1, h2, h3, .inr rfl, rfl, rfl, rfl⟩
      · rcases List.mem_singleton.1 hx with rfl
        exact ⟨_, _, rfl, h1, h2, h3, .inl rfl, rfl, rfl, rfl⟩⟩
  have key := e.key.isLt
  unfold result release
  by_cases hr : e.rising = true
  · rw [if_pos hr]
    repeat' split
    all_goals first
      | refine one _ _ hr ?_ ?_ <;> omega
      | refine two _ _ hr ?_ ?_ <;> omega
      | exact ⟨[], .nil, List.forall_mem_nil _⟩
  · rw [if_neg hr]
    repeat' split
    all_goals exact ⟨[], .nil, List.forall_mem_nil _⟩

theorem keypad_keys_steps (l : List Trellis.Event) {s : Trellis.State} (wf : s.node.WF) :
    ∃ h, Exec .arduino s.node h (l.foldl (result env) s).node ∧ ∀ x ∈ h, ∃ k ∈ l, KeyStep k x := by
  induction l generalizing s with
  | nil => exact ⟨[], .nil, List.forall_mem_nil _⟩
  | cons e l ih =>
    obtain ⟨h, x, k⟩ := ih (result_wf (env := env) wf e)
    obtain ⟨h', x', k'⟩ := keypad_key_steps (env := env) s wf e
    refine ⟨_, exec_append x' x, fun y hy => ?_⟩
    rcases List.mem_append.1 hy with hy | hy
    · obtain ⟨a, ha, b⟩ := k y hy
      exact ⟨a, List.mem_cons_of_mem _ ha, b⟩
    · exact ⟨e, List.mem_cons_self, k' y hy⟩

/-- **C124.** Every run of the key pad's program is, seen from the radio, a run of the state machine from power-up, in
which it receives only what the radio offered, and gets a local instruction (an effect and a palette, for 60 seconds) only
when one of the twelve choosing keys or the palette key was pressed. -/
theorem keypad_inputs (hreg : shippedRegistry .arduino seeds = .ok env.registry)
    {t₀ rand z z' rng h s} (r : Trellis.Run env (Trellis.init env t₀ rand z z' rng) h s) :
    ∃ h', Firefly.Run .arduino t₀ h' s.node ∧ ∀ e ∈ h', KeypadStep h e := by
  induction r with
  | nil =>
    refine ⟨_, ⟨rand, z, z', .cons (.setNumPalettes t₀ _) (.cons (.setNumEffects t₀ _) .nil rfl) rfl⟩, fun e he => ?_⟩
    rcases List.mem_cons.1 he with rfl | he
    · exact ⟨nofun, nofun⟩
    · rcases List.mem_singleton.1 he with rfl
      exact ⟨nofun, nofun⟩
  | @cons h s s' inp _ hl ih =>
    obtain ⟨h', ⟨rd, j, j', x⟩, k⟩ := ih
    have wf := Run.wf ⟨rd, j, j', x⟩
    obtain ⟨node, ht, wf', _, _, p, r, rfl⟩ := Trellis.loop_ok hreg wf hl
    obtain ⟨h₃, x'', k''⟩ := keypad_keys_steps (env := env) inp.events (s := { s with node := node }) wf'
    have keys : ∀ {y s'}, y ∈ h₃ → KeypadStep ((s, inp, s') :: h) y := fun {y s'} hy => by
      obtain ⟨a, ha, now, q, ho, b⟩ := k'' y hy
      constructor
      · intro _ _ ho'
        rw [ho] at ho'
        cases ho'
      intro _ _ ho'
      rw [ho] at ho'
      cases ho'
      exact ⟨_, List.mem_cons_self, a, ha, b⟩
    obtain ⟨s₁, h1, ⟨_, h2⟩ | ⟨_, s₂, h2, h3⟩⟩ := Node.tick_eq_ops.1 ht
    · refine ⟨_, ⟨rd, j, j', exec_append (.cons _ (.cons _ x h1) h2) x''⟩, fun e he => ?_⟩
      rcases List.mem_append.1 he with he | he
      · exact keys he
      rcases List.mem_cons.1 he with rfl | he
      · exact ⟨nofun, nofun⟩
      rcases List.mem_cons.1 he with rfl | he
      · exact ⟨fun now rx ho => by cases ho; exact ⟨_, List.mem_cons_self, .inl ⟨rfl, rfl⟩⟩, nofun⟩
      · exact (k e he).older
    · refine ⟨_, ⟨rd, j, j', exec_append (.cons _ (.cons _ (.cons _ x h1) h2) h3) x''⟩, fun e he => ?_⟩
      rcases List.mem_append.1 he with he | he
      · exact keys he
      rcases List.mem_cons.1 he with rfl | he
      · exact ⟨nofun, nofun⟩
      rcases List.mem_cons.1 he with rfl | he
      · exact ⟨fun now rx ho => by cases ho; exact ⟨_, List.mem_cons_self, .inr ⟨rfl, rfl⟩⟩, nofun⟩
      rcases List.mem_cons.1 he with rfl | he
      · exact ⟨fun now rx ho => by cases ho; exact ⟨_, List.mem_cons_self, .inl ⟨rfl, rfl⟩⟩, nofun⟩
      · exact (k e he).older

/-- A run in which a choosing key is pressed and the pad transmits. -/
example : ∃ h s, Trellis.Run Demo.env Demo.start h s ∧
    (∃ x ∈ h, ∃ k ∈ x.2.1.events, k.rising = true ∧ k.key.val = 3) ∧ s.node.sent ≠ [] := by
  obtain ⟨h, s, r, hc⟩ := Demo.run_of_check
    (l := [Demo.input 1100 none [Demo.down 3 1100, Demo.up 3 1120]])
    (fun h s => decide ((∃ x ∈ h, ∃ k ∈ x.2.1.events, k.rising = true ∧ k.key.val = 3) ∧ s.node.sent ≠ []))
    (by decide +kernel)
  exact ⟨h, s, r, of_decide_eq_true hc⟩

end Firefly.Props
