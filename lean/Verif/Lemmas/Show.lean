import Verif.Spec.Show
import Verif.Props.Stability
import Verif.Props.Board

/-! # Helper lemmas for installations of LED boards -/

set_option linter.unusedSimpArgs false

namespace Firefly
open Spec Props

theorem Spec.HwNet.Steps.trans {n nbrs} {a b c : HwNet n} (h : HwNet.Steps nbrs a b)
    (h' : HwNet.Steps nbrs b c) : HwNet.Steps nbrs a c := by
  induction h' with
  | refl => exact h
  | step _ hst ih => exact .step ih hst

theorem Spec.HwNet.Steps.reach {n nbrs} {a b : HwNet n} (h : HwNet.Steps nbrs a b)
    (hr : HwNet.Reach nbrs a) : HwNet.Reach nbrs b := by
  induction h with
  | refl => exact hr
  | step _ hst ih => exact .step ih hst

/-- The frames put on the air in a step. -/
def framesOf (e : Entry) : List (List U8) :=
  match Board.frames e.pre e.post with
  | .ok fs => fs
  | .error _ => []

/-- The frames put on the air in several steps of device `i` (newest first). -/
def airOf {n} (i : Fin n) (es : List Entry) : List (Fin n × List U8) :=
  es.flatMap fun e => (framesOf e).map (i, ·)

/-- The network after device `i` went through the steps `es` to `s`. -/
def HwNet.after {n} (net : HwNet n) (i : Fin n) (es : List Entry) (s : Node) : HwNet n :=
  { node := fun k => if k = i then s else net.node k
    hist := fun k => if k = i then es ++ net.hist i else net.hist k
    air := airOf i es ++ net.air }

/-- A sequence of steps of one device is a sequence of steps of the network. -/
theorem steps_of_exec {n nbrs} {net : HwNet n} {i : Fin n} {es s}
    (x : Exec .arduino (net.node i) es s)
    (hfr : ∀ e ∈ es, ∃ fs, Board.frames e.pre e.post = .ok fs)
    (hrx : ∀ e ∈ es, ∀ now rx, e.op = .radioTick now rx → HwNet.CanRead nbrs net i now rx)
    (hproper : ∀ e ∈ es, ∀ now p, e.op ≠ .setEffect now p) :
    HwNet.Steps nbrs net (net.after i es s) := by
  induction x with
  | nil =>
    have : net.after i [] (net.node i) = net := by
      simp only [HwNet.after, airOf, List.flatMap_nil, List.nil_append]
      congr 1 <;> (funext k; split <;> simp_all)
    rw [this]
    exact .refl
  | @cons h s op s' x hst ih =>
    have ih := ih (fun e he => hfr e (List.mem_cons_of_mem _ he))
      (fun e he => hrx e (List.mem_cons_of_mem _ he))
      (fun e he => hproper e (List.mem_cons_of_mem _ he))
    obtain ⟨fs, hfs⟩ := hfr _ List.mem_cons_self
    refine .step ih ?_
    have hnode : (net.after i h s).node i = s := if_pos rfl
    have step := HwNet.Step.act (nbrs := nbrs) (net := net.after i h s) i op (s' := s') (fs := fs)
      (fun now rx ho => by
        obtain ⟨l, h1, h2, h3⟩ := hrx _ List.mem_cons_self now rx ho
        exact ⟨l, h1, h2, fun f hf => by
          obtain ⟨j, hj, hm⟩ := h3 f hf
          exact ⟨j, hj, List.mem_append_right _ hm⟩⟩)
      (fun now p ho => absurd ho (hproper _ List.mem_cons_self now p))
      (by rw [hnode]; exact hst) (by rw [hnode]; exact hfs)
    have heq : net.after i (⟨s, op, s'⟩ :: h) s' =
        { node := fun k => if k = i then s' else (net.after i h s).node k
          hist := fun k => if k = i then ⟨(net.after i h s).node i, op, s'⟩ :: (net.after i h s).hist i
            else (net.after i h s).hist k
          air := fs.map (i, ·) ++ (net.after i h s).air } := by
      have hf : framesOf ⟨s, op, s'⟩ = fs := by simp only [framesOf, hfs]
      simp only [HwNet.after, airOf, List.flatMap_cons, List.append_assoc, hf, if_true]
      congr 1 <;> (funext k; split <;> simp_all)
    rw [heq]
    exact step

/-- The steps of the state machine in one call of `Tick`. -/
theorem tickEntries_ok {l₁ l₂ : Board.Listen} {s s' : Node} {fs es}
    (ht : Board.tick l₁ l₂ s = .ok (s', fs)) (he : Board.tickEntries l₁ l₂ s = .ok es) :
    Exec .arduino s es s' ∧ (∀ e ∈ es, ∃ fs, Board.frames e.pre e.post = .ok fs) ∧
      (∀ e ∈ es, ∀ now rx, e.op = .radioTick now rx →
        ∃ l ∈ [l₁, l₂], l.now = now ∧ l.packet = .ok rx) ∧
      (∀ e ∈ es, ∀ now p, e.op ≠ .setEffect now p) ∧
      ∀ f, f ∈ fs ↔ ∃ e ∈ es, f ∈ framesOf e := by
  obtain ⟨s₁, f₁, h1, h⟩ := Board.tick_ok ht
  obtain ⟨rx, hp, hst, hf⟩ := Board.radioTick_ok.1 h1
  have hst' : s.radioTick .arduino l₁.now rx = .ok s₁ := hst
  simp only [Board.tickEntries, bind, Except.bind, pure, Except.pure, hp, hst'] at he
  have hend : ∀ s : Node, Board.frames s { s with tickRun := true } = .ok [] := by
    intro s; simp [Board.frames, pure, Except.pure]
  rcases h with ⟨htr, rfl, rfl⟩ | ⟨htr, s₂, f₂, h2, rfl, rfl⟩
  · rw [if_neg (by simp [htr])] at he
    cases he
    refine ⟨.cons _ (.cons _ .nil hst) rfl, ?_, ?_, ?_, ?_⟩
    · simp only [List.mem_cons, List.not_mem_nil, or_false]
      rintro e (rfl | rfl)
      · exact ⟨_, hend _⟩
      · exact ⟨_, hf⟩
    · simp only [List.mem_cons, List.not_mem_nil, or_false]
      rintro e (rfl | rfl) now rx' ho
      · cases ho
      · cases ho; exact ⟨l₁, .inl rfl, rfl, hp⟩
    · simp only [List.mem_cons, List.not_mem_nil, or_false]
      rintro e (rfl | rfl) now p ho <;> cases ho
    · intro f
      simp [framesOf, hend, hf]
  · obtain ⟨rx₂, hp₂, hst₂, hf₂⟩ := Board.radioTick_ok.1 h2
    have hst₂' : s₁.radioTick .arduino l₂.now rx₂ = .ok s₂ := hst₂
    rw [if_pos htr] at he
    simp only [hp₂, hst₂'] at he
    cases he
    refine ⟨.cons _ (.cons _ (.cons _ .nil hst) hst₂) rfl, ?_, ?_, ?_, ?_⟩
    · simp only [List.mem_cons, List.not_mem_nil, or_false]
      rintro e (rfl | rfl | rfl)
      · exact ⟨_, hend _⟩
      · exact ⟨_, hf₂⟩
      · exact ⟨_, hf⟩
    · simp only [List.mem_cons, List.not_mem_nil, or_false]
      rintro e (rfl | rfl | rfl) now rx' ho
      · cases ho
      · cases ho; exact ⟨l₂, .inr rfl, rfl, hp₂⟩
      · cases ho; exact ⟨l₁, .inl rfl, rfl, hp⟩
    · simp only [List.mem_cons, List.not_mem_nil, or_false]
      rintro e (rfl | rfl | rfl) now p ho <;> cases ho
    · intro f
      simp [framesOf, hend, hf, hf₂, or_comm]

/-- A step remains possible when the frames on the air are listed in another order. -/
theorem step_same_air {n nbrs} {net net' : HwNet n} (h : HwNet.Step nbrs net net')
    {A : List (Fin n × List U8)} (hA : ∀ x, x ∈ A ↔ x ∈ net.air) :
    ∃ A', HwNet.Step nbrs { net with air := A } { net' with air := A' } ∧
      ∀ x, x ∈ A' ↔ x ∈ net'.air := by
  obtain ⟨i, op, hrx, hproper, hst, hfs⟩ := h
  refine ⟨_, HwNet.Step.act (nbrs := nbrs) (net := { net with air := A }) i op
    (fun now rx ho => ?_) hproper hst hfs, fun x => by simp [hA x]⟩
  obtain ⟨l, h1, h2, h3⟩ := hrx now rx ho
  exact ⟨l, h1, h2, fun f hf => by
    obtain ⟨j, hj, hm⟩ := h3 f hf
    exact ⟨j, hj, (hA _).2 hm⟩⟩

/-- What links the boards to the network. -/
structure Linked {n} (dev : Fin n → Option Board.Env) (x : LightNet n) : Prop where
  node : ∀ i env, dev i = some env → x.net.node i = (x.board i).node
  run : ∀ i env, dev i = some env → ∃ t₀ rand,
    Board.Run env (Board.init env t₀ rand) (x.iter i) (x.board i)
  told : ∀ i env, dev i = some env → ∀ e ∈ x.net.hist i, ∀ now p, e.op ≠ .setEffect now p

/-- A step of the installation is a sequence of steps of the network. -/
theorem light_step {n dev nbrs} {x x' : LightNet n} (lk : Linked dev x)
    (h : LightNet.Step dev nbrs x x') {A : List (Fin n × List U8)}
    (hA : ∀ y, y ∈ A ↔ y ∈ x.net.air) :
    Linked dev x' ∧ ∃ A', HwNet.Steps nbrs { x.net with air := A } { x'.net with air := A' } ∧
      ∀ y, y ∈ A' ↔ y ∈ x'.net.air := by
  cases h with
  | @board i env inp s' es hdev hread hloop hes =>
    have hnode := lk.node i env hdev
    have key : ∃ A', HwNet.Steps nbrs { x.net with air := A }
        { node := fun k => if k = i then s'.node else x.net.node k
          hist := fun k => if k = i then es ++ x.net.hist i else x.net.hist k
          air := A' } ∧
        (∀ y, y ∈ A' ↔ y ∈ (s'.aired.drop (x.board i).aired.length).map (i, ·) ++ x.net.air) ∧
        ∀ e ∈ es, ∀ now p, e.op ≠ .setEffect now p := by
      unfold Board.entries at hes
      by_cases hc : env.program = .fancyNode ∧
          (Battery.step .fancyNode (x.board i).low inp.battery).active = false
      · rw [if_pos hc] at hes
        cases hes
        obtain ⟨h1, h2, -⟩ := board_loop_asleep (fun ha => by
          have := ha hc.1; rw [hc.2] at this; cases this) hloop
        refine ⟨A, ?_, fun y => by rw [h2]; simp [hA y], by simp⟩
        have : (⟨fun k => if k = i then s'.node else x.net.node k,
            fun k => if k = i then [] ++ x.net.hist i else x.net.hist k, A⟩ : HwNet n) =
            { x.net with air := A } := by
          congr 1 <;> (funext k; split <;> simp_all)
        rw [this]
        exact .refl
      · rw [if_neg hc] at hes
        have ha : BoardAwake env (x.board i) inp := by
          intro hp
          cases hb : (Battery.step .fancyNode (x.board i).low inp.battery).active with
          | true => rfl
          | false => exact absurd ⟨hp, hb⟩ hc
        obtain ⟨fs, leds, ht, haired, -⟩ := board_loop_awake ha hloop
        obtain ⟨h1, h2, h3, h4, h5⟩ := tickEntries_ok ht hes
        have hx : Exec .arduino (({ x.net with air := A } : HwNet n).node i) es s'.node := by
          show Exec .arduino (x.net.node i) _ _
          rw [hnode]; exact h1
        refine ⟨_, steps_of_exec hx h2 (fun e he now rx ho => ?_) h4, fun y => ?_, h4⟩
        · obtain ⟨l, hl, hnow, hpk⟩ := h3 e he now rx ho
          exact ⟨l, hnow, hpk, fun f hf => by
            obtain ⟨j, hj, hm⟩ := hread l hl f hf
            exact ⟨j, hj, (hA _).2 hm⟩⟩
        · rw [haired, List.drop_left]
          simp only [List.mem_append, hA y, airOf, List.mem_flatMap, List.mem_map]
          constructor
          · rintro (⟨e, he, f, hf, rfl⟩ | h)
            · exact .inl ⟨f, (h5 f).2 ⟨e, he, hf⟩, rfl⟩
            · exact .inr h
          · rintro (⟨f, hf, rfl⟩ | h)
            · obtain ⟨e, he, hf'⟩ := (h5 f).1 hf
              exact .inl ⟨e, he, f, hf', rfl⟩
            · exact .inr h
    obtain ⟨A', k1, k2, k3⟩ := key
    refine ⟨⟨fun k env' hk => ?_, fun k env' hk => ?_, fun k env' hk => ?_⟩, A', k1, k2⟩
    · by_cases hki : k = i
      · simp [hki]
      · simpa [hki] using lk.node k env' hk
    · by_cases hki : k = i
      · subst hki
        rw [hdev] at hk; cases hk
        obtain ⟨t₀, rand, r⟩ := lk.run k env hdev
        refine ⟨t₀, rand, ?_⟩
        simp only [if_true]
        exact .cons inp r hloop
      · simpa [hki] using lk.run k env' hk
    · by_cases hki : k = i
      · subst hki
        simp only [if_true, List.mem_append]
        rintro e (he | he)
        · exact k3 e he
        · exact lk.told k env hdev e he
      · simpa [hki] using lk.told k env' hk
  | @other net' hstep hsame =>
    obtain ⟨A', h1, h2⟩ := step_same_air hstep hA
    refine ⟨⟨fun k env hk => ?_, lk.run, fun k env hk => ?_⟩, A', .step .refl h1, h2⟩
    · show net'.node k = _
      rw [(hsame k env hk).1]; exact lk.node k env hk
    · show ∀ e ∈ net'.hist k, _
      rw [(hsame k env hk).2]; exact lk.told k env hk

theorem light_steps {n dev nbrs} {x₀ x : LightNet n} (lk : Linked dev x₀)
    (h : LightNet.Steps dev nbrs x₀ x) {A : List (Fin n × List U8)}
    (hA : ∀ y, y ∈ A ↔ y ∈ x₀.net.air) :
    Linked dev x ∧ ∃ A', HwNet.Steps nbrs { x₀.net with air := A } { x.net with air := A' } ∧
      ∀ y, y ∈ A' ↔ y ∈ x.net.air := by
  induction h with
  | refl => exact ⟨lk, A, .refl, hA⟩
  | step _ hst ih =>
    obtain ⟨lk', A', h1, h2⟩ := ih
    obtain ⟨lk'', A'', h3, h4⟩ := light_step lk' hst h2
    exact ⟨lk'', A'', h1.trans h3, h4⟩

/-- The network before the devices in `done` have finished their static initialisation. -/
theorem boot_reach {n dev nbrs} {x : LightNet n} (hb : LightNet.Boot dev x) :
    Linked dev x ∧ HwNet.Reach nbrs x.net := by
  refine ⟨⟨fun i env hd => ?_, fun i env hd => ?_, fun i env hd => ?_⟩, ?_⟩
  · obtain ⟨t₀, rand, -, h, -⟩ := hb.board i env hd
    exact h
  · obtain ⟨t₀, rand, h1, -, h2, -⟩ := hb.board i env hd
    rw [h1, h2]
    exact ⟨t₀, rand, .nil⟩
  · obtain ⟨t₀, rand, -, -, -, h⟩ := hb.board i env hd
    rw [h]
    simp only [LightNet.setupEntries, List.mem_cons, List.not_mem_nil, or_false]
    rintro e (rfl | rfl) now p ho <;> cases ho
  · have hex : ∀ i : Fin n, ∃ s : Node, (∃ t₀ rand junk junk', s = Node.init t₀ rand junk junk') ∧
        Exec .arduino s (x.net.hist i) (x.net.node i) ∧
        (∀ e ∈ x.net.hist i, Board.frames e.pre e.post = .ok []) ∧
        (∀ e ∈ x.net.hist i, (∀ now rx, e.op ≠ .radioTick now rx) ∧
          ∀ now p, e.op ≠ .setEffect now p) := by
      intro i
      cases hd : dev i with
      | none =>
        obtain ⟨h1, t₀, rand, ju, ju', h2⟩ := hb.other i hd
        rw [h1, h2]
        exact ⟨_, ⟨_, _, _, _, rfl⟩, .nil, by simp, by simp⟩
      | some env =>
        obtain ⟨t₀, rand, h1, h2, -, h3⟩ := hb.board i env hd
        rw [h2, h1, h3]
        refine ⟨_, ⟨_, _, _, _, rfl⟩, .cons _ (.cons _ .nil rfl) rfl, ?_, ?_⟩
        · simp only [LightNet.setupEntries, List.mem_cons, List.not_mem_nil, or_false]
          rintro e (rfl | rfl) <;>
            simp [Board.frames, Node.setNumPalettes, Node.setNumEffects, pure, Except.pure]
        · simp only [LightNet.setupEntries, List.mem_cons, List.not_mem_nil, or_false]
          rintro e (rfl | rfl) <;> exact ⟨fun _ _ h => (by cases h), fun _ _ h => (by cases h)⟩
    obtain ⟨s0, hs⟩ := Classical.axiomOfChoice hex
    have hs0 := fun i => (hs i).1
    have hx := fun i => (hs i).2.1
    have hfr := fun i => (hs i).2.2.1
    have hops := fun i => (hs i).2.2.2
    have key : ∀ k ≤ n, HwNet.Reach nbrs
        { node := fun i => if i.val < k then x.net.node i else s0 i
          hist := fun i => if i.val < k then x.net.hist i else []
          air := [] } := by
      intro k
      induction k with
      | zero =>
        intro _
        exact .boot ⟨fun i => by simpa using hs0 i, fun i => by simp, rfl⟩
      | succ k ih =>
        intro hk
        have hr := ih (by omega)
        let i : Fin n := ⟨k, by omega⟩
        have hst := steps_of_exec (nbrs := nbrs) (i := i) (es := x.net.hist i) (s := x.net.node i)
          (net := { node := fun i => if i.val < k then x.net.node i else s0 i
                    hist := fun i => if i.val < k then x.net.hist i else []
                    air := [] })
          (by
            show Exec .arduino (if k < k then _ else _) _ _
            rw [if_neg (by omega)]
            exact hx i) (fun e he => ⟨_, hfr i e he⟩)
          (fun e he now rx ho => absurd ho ((hops i e he).1 now rx))
          (fun e he => (hops i e he).2)
        have hr' := hst.reach hr
        have heq : HwNet.after { node := fun i => if i.val < k then x.net.node i else s0 i
                                 hist := fun i => if i.val < k then x.net.hist i else []
                                 air := [] } i (x.net.hist i) (x.net.node i) =
            { node := fun i => if i.val < k + 1 then x.net.node i else s0 i
              hist := fun i => if i.val < k + 1 then x.net.hist i else []
              air := [] } := by
          have ha : airOf i (x.net.hist i) = [] := by
            simp only [airOf, List.flatMap_eq_nil_iff, List.map_eq_nil_iff]
            intro e he
            simp only [framesOf, hfr i e he]
          simp only [HwNet.after, ha, List.nil_append]
          have hval : ∀ j : Fin n, j = i ↔ j.val = k := fun j => Fin.ext_iff
          congr 1 <;>
          · funext j
            by_cases hj : j = i
            · subst hj; simp [i]
            · have : j.val ≠ k := fun h => hj ((hval j).2 h)
              simp only [if_neg hj]
              by_cases hlt : j.val < k
              · rw [if_pos hlt, if_pos (by omega)]
              · rw [if_neg hlt, if_neg (by omega)]
        rw [heq] at hr'
        exact hr'
    have := key n (Nat.le_refl n)
    have heq : (⟨fun i => if i.val < n then x.net.node i else s0 i,
        fun i => if i.val < n then x.net.hist i else [], []⟩ : HwNet n) = x.net := by
      have hair := hb.air
      cases hnet : x.net with
      | mk a b c =>
        rw [hnet] at hair
        simp only [Fin.is_lt, if_true]
        rw [← hair]
    rw [heq] at this
    exact this

theorem light_reach {n dev nbrs} {x : LightNet n} (hr : LightNet.Reach dev nbrs x) :
    Linked dev x ∧ ∃ A, HwNet.Reach nbrs { x.net with air := A } ∧ ∀ y, y ∈ A ↔ y ∈ x.net.air := by
  induction hr with
  | @boot x hb =>
    obtain ⟨h1, h2⟩ := boot_reach (nbrs := nbrs) hb
    exact ⟨h1, _, h2, fun _ => Iff.rfl⟩
  | step _ hst ih =>
    obtain ⟨lk, A, hA, hA'⟩ := ih
    obtain ⟨lk', A', h1, h2⟩ := light_step lk hst hA'
    exact ⟨lk', A', h1.reach hA, h2⟩

end Firefly
