import Verif.Props.Picture

/-! # A concrete case of C145 -/

namespace Firefly.Props
open Spec

namespace HwDemo

/-- The board. -/
def lamp : Board.Env := Board.Demo.env .node

/-- The frame that device `i` reads: the last one of that length on the air. -/
def frameFor (net : HwNet 3) (s : Fin 3 × U32 × Nat) : Option (List U8) :=
  (net.air.find? fun a => a.2.length == s.2.2 && decide (s.1 ∈ nbrs a.1)).map (·.2)

/-- What device `i` does: with length 1 and 2, it learns how many effects and palettes there are; with
3, it notes that it has run; otherwise it runs an iteration. -/
def opFor (net : HwNet 3) (s : Fin 3 × U32 × Nat) : Option Op :=
  if s.2.2 = 1 then some (.setNumEffects s.2.1 lamp.registry.getNumEffects)
  else if s.2.2 = 2 then some (.setNumPalettes s.2.1 (BitVec.ofNat 8 palettes.length))
  else if s.2.2 = 3 then some (.endTick s.2.1)
  else match Board.Listen.packet ⟨s.2.1, frameFor net s, junk⟩ with
  | .ok rx => some (.radioTick s.2.1 rx)
  | .error _ => none

def performs (net : HwNet 3) (s : Fin 3 × U32 × Nat) : Option (HwNet 3) :=
  (opFor net s).bind (act net s.1)

theorem performs_op {net net' : HwNet 3} {s} (h : performs net s = some net') :
    ∃ op, opFor net s = some op ∧ act net s.1 op = some net' := by
  unfold performs at h
  exact Option.bind_eq_some_iff.1 h

theorem opFor_ok {net : HwNet 3} {s op} (h : opFor net s = some op) :
    op.time = s.2.1 ∧ (∀ now p, op ≠ .setEffect now p) ∧
      ∀ now rx, op = .radioTick now rx → HwNet.CanRead nbrs net s.1 now rx := by
  unfold opFor at h
  split at h
  · cases h; exact ⟨rfl, by rintro _ _ ⟨⟩, by rintro _ _ ⟨⟩⟩
  split at h
  · cases h; exact ⟨rfl, by rintro _ _ ⟨⟩, by rintro _ _ ⟨⟩⟩
  split at h
  · cases h; exact ⟨rfl, by rintro _ _ ⟨⟩, by rintro _ _ ⟨⟩⟩
  split at h
  · rename_i rx hrx
    cases h
    refine ⟨rfl, by rintro _ _ ⟨⟩, ?_⟩
    rintro _ _ ⟨⟩
    refine ⟨_, rfl, hrx, fun f hf => ?_⟩
    simp only [frameFor] at hf
    rw [Option.map_eq_some_iff] at hf
    obtain ⟨a, ha, rfl⟩ := hf
    have h1 := List.find?_some ha
    have h2 := List.mem_of_find?_eq_some ha
    simp only [Bool.and_eq_true, decide_eq_true_eq] at h1
    exact ⟨a.1, h1.2, h2⟩
  · cases h

theorem act_node {net net' : HwNet 3} {i op} (h : act net i op = some net') :
    op.step .arduino (net.node i) = .ok (net'.node i) ∧ ∀ k, k ≠ i → net'.node k = net.node k := by
  unfold act at h
  split at h
  · cases h
  · rename_i s' hst
    split at h
    · cases h
    · cases h
      exact ⟨by simpa using hst, fun k hk => if_neg hk⟩

theorem performs_step {net net' : HwNet 3} {s} (h : performs net s = some net') :
    HwNet.Step nbrs net net' ∧
      ∀ i e, net'.hist i = e :: net.hist i → (Entry.time e).toNat = s.2.1.toNat := by
  obtain ⟨op, ho, ha⟩ := performs_op h
  obtain ⟨h1, h2, h3⟩ := opFor_ok ho
  have := act_step ha h3 (fun now p he => absurd he (h2 now p))
  rwa [h1] at this

theorem performs_reach {net net' : HwNet 3} {s} (hr : HwNet.Reach nbrs net)
    (h : performs net s = some net') : HwNet.Reach nbrs net' :=
  .step hr (performs_step h).1

theorem performs_runs {net net' : HwNet 3} {s}
    (hr : ∀ k, Firefly.Run .arduino 0 (net.hist k) (net.node k)) (h : performs net s = some net') :
    ∀ k, Firefly.Run .arduino 0 (net'.hist k) (net'.node k) := by
  obtain ⟨op, -, ha⟩ := performs_op h
  exact act_runs hr ha

/-- Several devices one after the other. -/
def performAll (net : HwNet 3) : List (Fin 3 × U32 × Nat) → Option (HwNet 3)
  | [] => some net
  | s :: l => (performs net s).bind fun net' => performAll net' l

theorem performAll_ok {l} {net net' : HwNet 3} (h : performAll net l = some net')
    (hr : HwNet.Reach nbrs net) (hrun : ∀ k, Firefly.Run .arduino 0 (net.hist k) (net.node k)) :
    HwNet.Reach nbrs net' ∧ ∀ k, Firefly.Run .arduino 0 (net'.hist k) (net'.node k) := by
  induction l generalizing net with
  | nil => cases h; exact ⟨hr, hrun⟩
  | cons s l ih =>
    obtain ⟨net₁, h1, h2⟩ := Option.bind_eq_some_iff.1 h
    exact ih h2 (performs_reach hr h1) (performs_runs hrun h1)

/-- Device 2, which is a board, is set up. -/
def e₀ : HwNet 3 := (performAll net₀ [(2, 0, 1), (2, 0, 2)]).getD net₀
/-- The middle device takes over and the others hear of it. -/
def e₁ : HwNet 3 := (performAll e₀ [(1, 8000, 0), (0, 8001, 7), (2, 8001, 7), (2, 8001, 3)]).getD net₀

theorem e₀_eq : performAll net₀ [(2, 0, 1), (2, 0, 2)] = some e₀ := some_getD (by decide +kernel)
theorem e₁_eq : performAll e₀ [(1, 8000, 0), (0, 8001, 7), (2, 8001, 7), (2, 8001, 3)] = some e₁ :=
  some_getD (by decide +kernel)

theorem e₁_ok : HwNet.Reach nbrs e₁ ∧ ∀ k, Firefly.Run .arduino 0 (e₁.hist k) (e₁.node k) := by
  have h := performAll_ok e₀_eq reach₀ (fun k => ⟨_, _, _, .nil⟩)
  exact performAll_ok e₁_eq h.1 h.2

/-- Both others miss the repetition at 10200 and hear the one at 12400, and the heartbeat at 12800. -/
def script₇ : Script := fun k =>
  if k < 22 then (1, BitVec.ofNat 32 (8200 + 200 * k), 0)
  else if k = 22 then (0, 12450, 6)
  else if k = 23 then (2, 12460, 6)
  else if k = 24 then (2, 12461, 0)
  else if k = 25 then (2, 12461, 3)
  else if k = 26 then (1, 12600, 0)
  else if k = 27 then (1, 12800, 0)
  else if k = 28 then (0, 12850, 7)
  else if k = 29 then (2, 12860, 7)
  else if k = 30 then (2, 12861, 0)
  else if k = 31 then (2, 12861, 3)
  else if k < 36 then (1, BitVec.ofNat 32 (13000 + 200 * (k - 32)), 0)
  else if k = 36 then (2, 13650, 0)
  else if k = 37 then (2, 13651, 0)
  else (2, 13651, 3)

def course : Nat → Option (HwNet 3)
  | 0 => some { e₁ with air := [] }
  | k + 1 => (course k).bind fun net => performs net (script₇ k)

def courseNet (k : Nat) : HwNet 3 := (course k).getD net₀

def courseTime : Nat → Nat
  | 0 => 8010
  | k + 1 => (script₇ k).2.1.toNat

theorem course_all : ∀ k ≤ 39, course k = some (courseNet k) := by
  have h : (course 39).isSome = true := by decide +kernel
  have down : ∀ d k, k + d = 39 → (course k).isSome = true := by
    intro d
    induction d with
    | zero => intro k hk; rw [show k = 39 by omega]; exact h
    | succ d ih =>
      intro k hk
      have := ih (k + 1) (by omega)
      unfold course at this
      cases e : course k with
      | none => rw [e] at this; cases this
      | some net => rfl
  exact fun k hk => some_getD (down (39 - k) k (by omega))

theorem course_step {k : Nat} (hk : k < 39) :
    performs (courseNet k) (script₇ k) = some (courseNet (k + 1)) := by
  have := course_all (k + 1) hk
  unfold course at this
  rw [course_all k (by omega)] at this
  exact this

theorem course_timeline :
    Timeline nbrs (fun _ => 0) (fun _ => 0) e₁ courseNet courseTime 39 := by
  have hc : ∀ i, clockOk (((courseNet 39).hist i).map Entry.time ++ [0]) = true := by decide +kernel
  refine ⟨e₁_ok.1, rfl, fun k hk => (performs_step (course_step hk)).1, by decide +kernel,
    fun k hk i e he => ?_, e₁_ok.2, fun i => clock_of_check (hc i)⟩
  have := (performs_step (course_step hk)).2 i e he
  unfold wall
  rw [this]
  exact Nat.zero_add _

/-! ## The board -/

def entered (k : Nat) (t : U32) : Board.Input where
  battery := ⟨true, 4000⟩
  millis := t
  first := ⟨(script₇ k).2.1, frameFor (courseNet k) (script₇ k), junk⟩
  second := ⟨(script₇ (k + 1)).2.1, frameFor (courseNet (k + 1)) (script₇ (k + 1)), junk⟩
  clock := fun j => t + BitVec.ofNat 32 j
  rng := 1337

/-- The network before device 2 hears of the takeover. -/
def e₂ : HwNet 3 := (performAll e₀ [(1, 8000, 0), (0, 8001, 7)]).getD net₀

def inp₁ : Board.Input where
  battery := ⟨true, 4000⟩
  millis := 8001
  first := ⟨8001, frameFor e₂ (2, 8001, 7), junk⟩
  second := ⟨8001, none, junk⟩
  clock := fun j => 8002 + BitVec.ofNat 32 j
  rng := 1337

def lamp₀ : Board.State := Board.init lamp 0 (fun n => if n = 2 ∧ (2 : Fin 3) = 1 then 0 else 10 * n + 2)
def lampAfter (inp : Board.Input) (s : Board.State) : Board.State :=
  (Board.loop lamp inp s).toOption.getD lamp₀
def lamp₁ := lampAfter inp₁ lamp₀
def lamp₂ := lampAfter (entered 23 12462) lamp₁
def lamp₃ := lampAfter (entered 29 12862) lamp₂
def lamp₄ := lampAfter (entered 36 13652) lamp₃

theorem lampAfter_ok {inp s} (h : (Board.loop lamp inp s).isOk = true) :
    Board.loop lamp inp s = .ok (lampAfter inp s) := by
  unfold lampAfter
  cases e : Board.loop lamp inp s with
  | ok s' => rfl
  | error _ => rw [e] at h; cases h

theorem lamp_run : Board.Run lamp lamp₀ [(lamp₃, entered 36 13652, lamp₄),
    (lamp₂, entered 29 12862, lamp₃), (lamp₁, entered 23 12462, lamp₂), (lamp₀, inp₁, lamp₁)] lamp₄ :=
  .cons _ (.cons _ (.cons _ (.cons _ .nil (lampAfter_ok (by decide +kernel)))
    (lampAfter_ok (by decide +kernel))) (lampAfter_ok (by decide +kernel)))
    (lampAfter_ok (by decide +kernel))

theorem loop_tick {inp s s'} (h : Board.loop lamp inp s = .ok s') :
    ∃ fs, Board.tick inp.first inp.second s.node = .ok (s'.node, fs) := by
  have h : Board.loopNode lamp inp s = .ok s' := h
  simp only [Board.loopNode, bind, Except.bind, pure, Except.pure] at h
  split at h
  · cases h
  · rename_i a ha
    split at h
    · cases h
    · cases h; exact ⟨a.2, ha⟩

theorem radio_node {net net' : HwNet 3} {s : Fin 3 × U32 × Nat} (h : performs net s = some net')
    (hl : s.2.2 ≠ 1 ∧ s.2.2 ≠ 2 ∧ s.2.2 ≠ 3) {node node' : Node} {fs} (hn : net.node s.1 = node)
    (ht : Board.radioTick ⟨s.2.1, frameFor net s, junk⟩ node = .ok (node', fs)) :
    net'.node s.1 = node' := by
  obtain ⟨rx, h1, h2, -⟩ := Board.radioTick_ok.1 ht
  obtain ⟨op, ho, ha⟩ := performs_op h
  unfold opFor at ho
  rw [if_neg hl.1, if_neg hl.2.1, if_neg hl.2.2, h1] at ho
  cases ho
  have h3 := (act_node ha).1
  rw [hn] at h3
  have h3 : node.radioTick .arduino s.2.1 rx = .ok (net'.node s.1) := h3
  have h2 : node.radioTick .arduino s.2.1 rx = .ok node' := h2
  rw [h2] at h3
  cases h3; rfl

theorem end_node {net net' : HwNet 3} {s : Fin 3 × U32 × Nat} (h : performs net s = some net')
    (hl : s.2.2 = 3) : net'.node s.1 = { net.node s.1 with tickRun := true } := by
  obtain ⟨op, ho, ha⟩ := performs_op h
  unfold opFor at ho
  rw [if_neg (by omega), if_neg (by omega), if_pos hl] at ho
  cases ho
  exact (Except.ok.inj (act_node ha).1).symm

theorem board_node {k : Nat} (hk : k + 2 < 39) (h0 : (script₇ k).1 = 2) (h1 : (script₇ (k + 1)).1 = 2)
    (h2 : (script₇ (k + 2)).1 = 2)
    (l0 : (script₇ k).2.2 ≠ 1 ∧ (script₇ k).2.2 ≠ 2 ∧ (script₇ k).2.2 ≠ 3)
    (l1 : (script₇ (k + 1)).2.2 ≠ 1 ∧ (script₇ (k + 1)).2.2 ≠ 2 ∧ (script₇ (k + 1)).2.2 ≠ 3)
    (l2 : (script₇ (k + 2)).2.2 = 3)
    (hrun : ((courseNet (k + 1)).node 2).tickRun = true) {t s s'}
    (hl : Board.loop lamp (entered k t) s = .ok s') (hn : (courseNet k).node 2 = s.node) :
    (courseNet (k + 3)).node 2 = s'.node := by
  obtain ⟨fs, ht⟩ := loop_tick hl
  obtain ⟨s₁, f₁, t1, h⟩ := Board.tick_ok ht
  have n1 := radio_node (course_step (k := k) (by omega)) l0 (by rw [h0]; exact hn) t1
  rw [h0] at n1
  rcases h with ⟨hf, -⟩ | ⟨-, s₂, f₂, t2, hs', -⟩
  · rw [n1, hf] at hrun; cases hrun
  have n2 := radio_node (course_step (k := k + 1) (by omega)) l1 (by rw [h1]; exact n1) t2
  rw [h1] at n2
  have n3 := end_node (course_step (k := k + 2) (by omega)) l2
  rw [h2] at n3
  rw [hs', ← n2]
  exact n3

theorem others_node {k : Nat} (hk : k < 39) (h : (script₇ k).1 ≠ 2) :
    (courseNet (k + 1)).node 2 = (courseNet k).node 2 := by
  obtain ⟨op, -, ha⟩ := performs_op (course_step hk)
  exact (act_node ha).2 2 (Ne.symm h)

theorem others_nodes {a : Nat} : ∀ d, a + d ≤ 39 → (∀ k < d, (script₇ (a + k)).1 ≠ 2) →
    (courseNet (a + d)).node 2 = (courseNet a).node 2 := by
  intro d
  induction d with
  | zero => exact fun _ _ => rfl
  | succ d ih =>
    intro hd h
    rw [show a + (d + 1) = a + d + 1 by omega, others_node (by omega) (h d (by omega))]
    exact ih (by omega) fun k hk => h k (by omega)

theorem first_node : (courseNet 0).node 2 = lamp₁.node := by
  obtain ⟨net₁, p1, q1⟩ := Option.bind_eq_some_iff.1 e₁_eq
  obtain ⟨net₂, p2, q2⟩ := Option.bind_eq_some_iff.1 q1
  obtain ⟨net₃, p3, q3⟩ := Option.bind_eq_some_iff.1 q2
  obtain ⟨net₄, p4, q4⟩ := Option.bind_eq_some_iff.1 q3
  cases q4
  have he₂ : e₂ = net₂ := by
    have : performAll e₀ [(1, 8000, 0), (0, 8001, 7)] = some net₂ := by
      simp only [performAll, p1, p2, Option.bind_some]
    unfold e₂; rw [this]; rfl
  have hn0 : e₀.node 2 = lamp₀.node := by
    obtain ⟨na, pa, qa⟩ := Option.bind_eq_some_iff.1 e₀_eq
    obtain ⟨nb, pb, qb⟩ := Option.bind_eq_some_iff.1 qa
    cases qb
    obtain ⟨oa, hoa, haa⟩ := performs_op pa
    obtain ⟨ob, hob, hab⟩ := performs_op pb
    cases hoa
    cases hob
    have h1 := (act_node haa).1
    have h2 := (act_node hab).1
    simp only [Op.step, Except.ok.injEq] at h1 h2
    rw [← h2, ← h1]
    rfl
  have hn2 : net₂.node 2 = lamp₀.node := by
    obtain ⟨_, -, ha⟩ := performs_op p1
    obtain ⟨_, -, hb⟩ := performs_op p2
    rw [(act_node hb).2 2 (by decide), (act_node ha).2 2 (by decide), hn0]
  have hl := lampAfter_ok (inp := inp₁) (s := lamp₀) (by decide +kernel)
  obtain ⟨fs, ht⟩ := loop_tick hl
  obtain ⟨s₁, f₁, t1, h⟩ := Board.tick_ok ht
  simp only [inp₁, he₂] at t1
  have n1 : net₃.node 2 = s₁ := radio_node p3 (by decide) hn2 t1
  have hrun : (((performAll e₀ [(1, 8000, 0), (0, 8001, 7), (2, 8001, 7)]).getD net₀).node 2).tickRun
      = false := by decide +kernel
  have he₃ : performAll e₀ [(1, 8000, 0), (0, 8001, 7), (2, 8001, 7)] = some net₃ := by
    simp only [performAll, p1, p2, p3, Option.bind_some]
  rw [he₃] at hrun
  have n3 : e₁.node 2 = { net₃.node 2 with tickRun := true } := end_node p4 rfl
  rcases h with ⟨-, hs', -⟩ | ⟨hf, -⟩
  · show e₁.node 2 = lamp₁.node
    rw [n3, n1]
    exact hs'.symm
  · have hrun : (net₃.node 2).tickRun = false := hrun
    rw [n1, hf] at hrun; cases hrun

theorem last_node : (courseNet 39).node 2 = lamp₄.node := by
  have a := others_nodes (a := 0) 23 (by omega) (by decide)
  have b := board_node (k := 23) (by omega) rfl rfl rfl (by decide) (by decide) rfl (by decide +kernel)
    (lampAfter_ok (inp := entered 23 12462) (s := lamp₁) (by decide +kernel)) (a.trans first_node)
  have c := others_nodes (a := 26) 3 (by omega) (by decide)
  have d := board_node (k := 29) (by omega) rfl rfl rfl (by decide) (by decide) rfl (by decide +kernel)
    (lampAfter_ok (inp := entered 29 12862) (s := lamp₂) (by decide +kernel)) (c.trans b)
  have e := others_nodes (a := 32) 4 (by omega) (by decide)
  exact board_node (k := 36) (by omega) rfl rfl rfl (by decide) (by decide) rfl (by decide +kernel)
    (lampAfter_ok (inp := entered 36 13652) (s := lamp₃) (by decide +kernel)) (e.trans d)

theorem e₁_just : JustHeard 1 (fun _ => 0) (fun _ => 0) e₁ 8010 := by
  have hs : ∀ i : Fin 3, decide ((e₁.node i).state = .master) = decide (i = 1) := by decide +kernel
  have h1 : ∀ e ∈ e₁.hist 1, (Entry.time e).toNat ≤ 8010 := by decide +kernel
  have h2 : ∃ b ∈ e₁.hist 1, own b = true ∧ (Entry.time b).toNat = 8000 ∧
      ∀ b' ∈ e₁.hist 1, own b' = true → (Entry.time b').toNat ≤ 8000 := by decide +kernel
  have h3 : ∀ i : Fin 3, i ≠ 1 → ∃ e ∈ e₁.hist i, Entry.HeardMaster e ∧
      8000 ≤ (Entry.time e).toNat := by decide +kernel
  refine ⟨fun i => ?_, fun e he => ?_, ?_⟩
  · have := hs i
    rwa [decide_eq_decide] at this
  · have := h1 e he; simp only [wall_zero]; omega
  · obtain ⟨b, hb, ho, ht, hl⟩ := h2
    refine ⟨b, hb, own_iff.1 ho, by simp only [wall_zero]; omega, fun b' hb' ho' => ?_, fun i hi => ?_⟩
    · have := hl b' hb' (own_iff.2 ho'); simp only [wall_zero]; omega
    · obtain ⟨e, he, h4, h5⟩ := h3 i hi
      exact ⟨Entry.time e, .inr ⟨e, he, rfl, .inl h4⟩, by simp only [wall_zero, Nat.zero_add]; omega⟩

theorem course_attentive : Attentive 1 (fun _ => 0) e₁ courseNet courseTime 39 200 := by
  have h : ∀ k < 40, gapless 200 8010 (courseTime k)
      (((since e₁ (courseNet k) 1).filter idle).map fun e => (Entry.time e).toNat) = true := by
    decide +kernel
  intro k hk x h0 hx
  obtain ⟨t, ht, h1, h2⟩ := gapless_sound (h k (by omega)) h0 hx
  rw [List.mem_map] at ht
  obtain ⟨e, he, rfl⟩ := ht
  rw [List.mem_filter] at he
  refine ⟨e, he.1, ?_, ?_, by simp only [wall_zero]; omega, by simp only [wall_zero]; omega⟩
  · have := he.2
    unfold idle at this
    obtain ⟨pre, op, post⟩ := e
    cases op with
    | radioTick now rx => exact ⟨now, rx, rfl⟩
    | _ => cases this
  · have := he.2
    unfold idle at this
    simp only [Bool.and_eq_true, Option.isNone_iff_eq_none] at this
    exact this.2

/-- What the master follows all the time. -/
def picture : Packet := (e₁.node 1).setEffectPacket

end HwDemo

open HwDemo in
/-- A concrete case of C145: device 2 is a board with six LEDs.  It and device 0 miss the repetition
of the instruction at 10200 ms and three heartbeats, and hear the repetition at 12400 and the heartbeat
at 12800.  The last iteration of the board begins at 13650 ms, and lights LEDs. -/
theorem everybody_shows_demo :
    Timeline nbrs (fun _ => 0) (fun _ => 0) e₁ courseNet courseTime 39 ∧
    JustHeard 1 (fun _ => 0) (fun _ => 0) e₁ (courseTime 0) ∧
    Attentive 1 (fun _ => 0) e₁ courseNet courseTime 39 200 ∧
    (∀ i, i ≠ 1 → OneOfFour 1 i (fun _ => 0) e₁ courseNet courseTime 39 150 ∧
      Prompt 1 i (fun _ => 0) e₁ (courseNet 39) 60 ∧
      OneOf 2 1 i (fun _ => 0) e₁ courseNet courseTime 39 60 ∧
      Recent nbrs i (fun _ => 0) e₁ (courseNet 39) 60) ∧
    Steady 1 (fun _ => 0) e₁ (courseNet 39) 8010 picture ∧ Complete picture ∧
    courseTime 0 + 5000 < courseTime 39 ∧ 8010 + 2 * 60 + 2 * (2003 + 3 * 200) < courseTime 39 ∧
    (∃ rand h s, Board.Run lamp (Board.init lamp 0 rand) ((s, entered 36 13652, lamp₄) :: h) lamp₄ ∧
      BoardAwake lamp s (entered 36 13652)) ∧
    (courseNet 39).node 2 = lamp₄.node ∧
    (∃ seeds, shippedRegistry .arduino seeds = .ok lamp.registry) ∧ totalLeds lamp.device ≤ 255 ∧
    (ledsInOrder lamp.device).length = 6 ∧
    (∀ k < 6, (entered 36 13652).clock k = BitVec.ofNat 32 (13652 + k)) ∧
    (∃ col, lamp₄.leds[1]? = some col ∧ col ≠ ⟨0, 0, 0⟩) := by
  have beats : ∀ k < 40, ∀ e ∈ since e₁ (courseNet k) 1, own e = true →
      (Entry.time e).toNat ∈ [9200, 10400, 11600, 12800] := by decide +kernel
  have heard : ∀ k < 40, 12950 < courseTime k → ∀ i : Fin 3, i ≠ 1 →
      ∃ e ∈ since e₁ (courseNet k) i, Entry.HeardMaster e ∧ 9200 ≤ (Entry.time e).toNat ∧
        (Entry.time e).toNat ≤ 12950 := by decide +kernel
  have prompt : ∀ i : Fin 3, i ≠ 1 → ∀ e ∈ since e₁ (courseNet 39) i,
      (Entry.heard e).isSome = true → ∀ b ∈ since e₁ (courseNet 39) 1,
      (Entry.time e).toNat ≤ (Entry.time b).toNat + 60 ∨
      ∀ q ∈ Entry.transmitted b, q.type = .heartbeat → 3 < q.len.toNat ∧
        ((Entry.heard e).all fun p => p.data[3] != q.data[3]) = true := by decide +kernel
  have reps : ∀ k < 40, ∀ b ∈ since e₁ (courseNet k) 1, ∀ q ∈ Entry.transmitted b,
      q.type = b.pre.setEffectPacket.type → (Entry.time b).toNat ∈ [10200, 12400] := by decide +kernel
  have hears : ∀ k < 40, 12460 < courseTime k → ∀ i : Fin 3, i ≠ 1 →
      ∀ b ∈ since e₁ (courseNet k) 1, (Entry.time b).toNat = 12400 →
      ((Entry.transmitted b).all fun q => (since e₁ (courseNet k) i).any fun e =>
        ((Entry.heard e).any fun p => decide (Carries p q)) &&
        decide (12400 ≤ (Entry.time e).toNat) && decide ((Entry.time e).toNat ≤ 12460)) = true := by
    decide +kernel
  have recent : ∀ i : Fin 3, i ≠ 1 → i ∈ nbrs 1 ∧ ∀ e ∈ since e₁ (courseNet 39) i,
      ((Entry.heard e).all fun p => decide (IsInstruction p) == false ||
        (since e₁ (courseNet 39) 1).any fun b => decide ((Entry.time e).toNat ≤
          (Entry.time b).toNat + 60) && (Entry.transmitted b).any fun q =>
            (courseNet 39).air.any fun a => sends q a.2 && decide (decodes a.2 p)) = true := by
    decide +kernel
  have still : (∀ i, ∀ e ∈ since e₁ (courseNet 39) i, 8010 ≤ (Entry.time e).toNat →
      (match e.op with | .setEffect _ _ => false | _ => true) = true) ∧
      ∀ e ∈ since e₁ (courseNet 39) 1, 8010 ≤ (Entry.time e).toNat →
        SameContent e.post.getSetEffect picture := by decide +kernel
  refine ⟨course_timeline, e₁_just, course_attentive, fun i hi => ⟨?_, ?_, ?_, ?_⟩,
    ⟨fun i e he hx now p ho => ?_, fun e he hx => still.2 e he (by rwa [wall_zero] at hx)⟩,
    .inl (by decide +kernel), by decide +kernel, by decide +kernel,
    ⟨_, _, _, lamp_run, fun h => (by cases h)⟩, last_node, ⟨_, Board.Demo.env_shipped .node⟩,
    by decide +kernel, by decide +kernel, by decide +kernel, by decide +kernel⟩
  · intro k hk a b c d ha hb hc hd oa ob oc od h1 h2 h3 h4
    have ea := beats k (by omega) a ha (own_iff.2 oa)
    have eb := beats k (by omega) b hb (own_iff.2 ob)
    have ec := beats k (by omega) c hc (own_iff.2 oc)
    have ed := beats k (by omega) d hd (own_iff.2 od)
    simp only [List.mem_cons, List.not_mem_nil, or_false] at ea eb ec ed
    simp only [wall_zero] at h1 h2 h3 h4 ⊢
    obtain ⟨e, he, e1, e2, e3⟩ := heard k (by omega) (by omega) i hi
    exact ⟨e, he, e1, by omega, by omega⟩
  · intro e he p hp b hb q hq hqt hc
    rcases prompt i hi e he (by rw [hp]; rfl) b hb with h | h
    · simp only [wall_zero]; omega
    · have := h q hq hqt
      rw [hp] at this
      exact absurd (hc.2 3 (by decide) this.1) (bne_iff_ne.1 this.2)
  · intro k hk bs hl hb hpw
    obtain ⟨a, b, rfl⟩ := two_of_length hl
    obtain ⟨a1, ⟨qa, a2⟩, a3⟩ := hb a (by simp)
    obtain ⟨b1, ⟨qb, b2⟩, b3⟩ := hb b (by simp)
    have ta := reps k (by omega) a a1 qa (by rw [a2.sent]; simp) a2.same.1
    have tb := reps k (by omega) b b1 qb (by rw [b2.sent]; simp) b2.same.1
    have hab := (List.pairwise_cons.1 hpw).1 b (by simp)
    simp only [wall_zero] at hab a3 b3
    simp only [List.mem_cons, List.not_mem_nil, or_false] at ta tb
    have htb : (Entry.time b).toNat = 12400 := by omega
    have := hears k (by omega) (by omega) i hi b b1 htb
    rw [List.all_eq_true] at this
    have := this qb (by rw [b2.sent]; simp)
    rw [List.any_eq_true] at this
    obtain ⟨e, he, h⟩ := this
    rw [Bool.and_eq_true, Bool.and_eq_true, Option.any_eq_true] at h
    obtain ⟨⟨h1, h2⟩, h3⟩ := h
    have h2 := of_decide_eq_true h2
    have h3 := of_decide_eq_true h3
    obtain ⟨p, hp, hc⟩ := h1
    exact ⟨b, by simp, qb, b2, e, he, p, hp, of_decide_eq_true hc, by simp only [wall_zero]; omega,
      by simp only [wall_zero]; omega⟩
  · intro e he p hp hpi
    obtain ⟨hn, hr⟩ := recent i hi
    have := hr e he
    rw [hp] at this
    simp only [Option.all_some, Bool.or_eq_true, beq_iff_eq, decide_eq_false_iff_not, List.any_eq_true,
      Bool.and_eq_true, decide_eq_true_eq] at this
    rcases this with h | ⟨b, hb, hw, q, hq, a, _, hs, hd⟩
    · exact absurd hpi h
    · exact ⟨1, hn, b, hb, q, hq, a.2, sends_ok hs, decodes_ok hd, by simp only [wall_zero]; omega⟩
  · have := still.1 i e he (by rwa [wall_zero] at hx)
    rw [ho] at this
    cases this

end Firefly.Props
