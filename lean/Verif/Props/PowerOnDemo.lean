import Verif.Props.PowerOn
import Verif.Props.PictureDemo

/-! # A concrete case of C172 with a board -/

namespace Firefly.Props
open Spec

namespace ColdDemo
open HwDemo

theorem e₀_ok : HwNet.Reach nbrs e₀ ∧ ∀ k, Firefly.Run .arduino 0 (e₀.hist k) (e₀.node k) :=
  performAll_ok e₀_eq reach₀ (fun _ => ⟨_, _, _, .nil⟩)

/-- Nobody is master until the middle device takes over at 8000, of which both others hear; they miss
its repetition at 10200, and hear the one at 12400 and the heartbeat at 12800. -/
def script : Script := fun k =>
  if k = 0 then (1, 8000, 0)
  else if k = 1 then (0, 8001, 7)
  else if k = 2 then (2, 8001, 7)
  else if k = 3 then (2, 8001, 3)
  else script₇ (k - 4)

def course : Nat → Option (HwNet 3)
  | 0 => some { e₀ with air := [] }
  | k + 1 => (course k).bind fun net => performs net (script k)

def courseNet (k : Nat) : HwNet 3 := (course k).getD net₀

def courseTime : Nat → Nat
  | 0 => 10
  | k + 1 => (script k).2.1.toNat

theorem course_all : ∀ k ≤ 43, course k = some (courseNet k) := by
  have h : (course 43).isSome = true := by decide +kernel
  have down : ∀ d k, k + d = 43 → (course k).isSome = true := by
    intro d
    induction d with
    | zero => intro k hk; rw [show k = 43 by omega]; exact h
    | succ d ih =>
      intro k hk
      have := ih (k + 1) (by omega)
      unfold course at this
      cases e : course k with
      | none => rw [e] at this; cases this
      | some net => rfl
  exact fun k hk => some_getD (down (43 - k) k (by omega))

theorem course_step {k : Nat} (hk : k < 43) :
    performs (courseNet k) (script k) = some (courseNet (k + 1)) := by
  have := course_all (k + 1) hk
  unfold course at this
  rw [course_all k (by omega)] at this
  exact this

theorem course_timeline :
    Timeline nbrs (fun _ => 0) (fun _ => 0) e₀ courseNet courseTime 43 := by
  have hc : ∀ i, clockOk (((courseNet 43).hist i).map Entry.time ++ [0]) = true := by decide +kernel
  refine ⟨e₀_ok.1, rfl, fun k hk => (performs_step (course_step hk)).1, by decide +kernel,
    fun k hk i e he => ?_, e₀_ok.2, fun i => clock_of_check (hc i)⟩
  have := (performs_step (course_step hk)).2 i e he
  unfold wall
  rw [this]
  exact Nat.zero_add _

def entered (k : Nat) (t : U32) : Board.Input where
  battery := ⟨true, 4000⟩
  millis := t
  first := ⟨(script k).2.1, frameFor (courseNet k) (script k), junk⟩
  second := ⟨(script (k + 1)).2.1, frameFor (courseNet (k + 1)) (script (k + 1)), junk⟩
  clock := fun j => t + BitVec.ofNat 32 j
  rng := 1337

def lamp₀ : Board.State := HwDemo.lamp₀
def lamp₁ := lampAfter (entered 2 8002) lamp₀
def lamp₂ := lampAfter (entered 27 12462) lamp₁
def lamp₃ := lampAfter (entered 33 12862) lamp₂
def lamp₄ := lampAfter (entered 40 13652) lamp₃

theorem lamp_run : Board.Run lamp lamp₀ [(lamp₃, entered 40 13652, lamp₄),
    (lamp₂, entered 33 12862, lamp₃), (lamp₁, entered 27 12462, lamp₂), (lamp₀, entered 2 8002, lamp₁)]
    lamp₄ :=
  .cons _ (.cons _ (.cons _ (.cons _ .nil (lampAfter_ok (by decide +kernel)))
    (lampAfter_ok (by decide +kernel))) (lampAfter_ok (by decide +kernel)))
    (lampAfter_ok (by decide +kernel))

theorem board_node {k : Nat} (hk : k + 2 < 43) (h0 : (script k).1 = 2) (h1 : (script (k + 1)).1 = 2)
    (h2 : (script (k + 2)).1 = 2)
    (l0 : (script k).2.2 ≠ 1 ∧ (script k).2.2 ≠ 2 ∧ (script k).2.2 ≠ 3)
    (l1 : (script (k + 1)).2.2 ≠ 1 ∧ (script (k + 1)).2.2 ≠ 2 ∧ (script (k + 1)).2.2 ≠ 3)
    (l2 : (script (k + 2)).2.2 = 3)
    (hrun : ((courseNet (k + 1)).node 2).tickRun = true) {t s s'}
    (hl : Board.loop lamp (entered k t) s = .ok s') (hn : (courseNet k).node 2 = s.node) :
    (courseNet (k + 3)).node 2 = s'.node := by
  obtain ⟨fs, ht⟩ := loop_tick hl
  obtain ⟨s₁, f₁, t1, h⟩ := Board.tick_ok ht
  have n1 := radio_node (course_step (k := k) (by omega)) l0 (by rw [h0]; exact hn) t1
  rw [h0] at n1
  rcases h with ⟨hf, -⟩ | ⟨-, s₂, f₂, t2, hs', -⟩
  · rw [n1, hf] at hrun; cases hrun
  have n2 := radio_node (course_step (k := k + 1) (by omega)) l1 (by rw [h1]; exact n1) t2
  rw [h1] at n2
  have n3 := end_node (course_step (k := k + 2) (by omega)) l2
  rw [h2] at n3
  rw [hs', ← n2]
  exact n3

theorem others_node {k : Nat} (hk : k < 43) (h : (script k).1 ≠ 2) :
    (courseNet (k + 1)).node 2 = (courseNet k).node 2 := by
  obtain ⟨op, -, ha⟩ := performs_op (course_step hk)
  exact (act_node ha).2 2 (Ne.symm h)

theorem others_nodes {a : Nat} : ∀ d, a + d ≤ 43 → (∀ k < d, (script (a + k)).1 ≠ 2) →
    (courseNet (a + d)).node 2 = (courseNet a).node 2 := by
  intro d
  induction d with
  | zero => exact fun _ _ => rfl
  | succ d ih =>
    intro hd h
    rw [show a + (d + 1) = a + d + 1 by omega, others_node (by omega) (h d (by omega))]
    exact ih (by omega) fun k hk => h k (by omega)

theorem first_node : (courseNet 4).node 2 = lamp₁.node := by
  have hn0 : (courseNet 0).node 2 = lamp₀.node := by
    obtain ⟨na, pa, qa⟩ := Option.bind_eq_some_iff.1 e₀_eq
    obtain ⟨nb, pb, qb⟩ := Option.bind_eq_some_iff.1 qa
    cases qb
    obtain ⟨oa, hoa, haa⟩ := performs_op pa
    obtain ⟨ob, hob, hab⟩ := performs_op pb
    cases hoa
    cases hob
    have h1 := (act_node haa).1
    have h2 := (act_node hab).1
    simp only [Op.step, Except.ok.injEq] at h1 h2
    show e₀.node 2 = _
    rw [← h2, ← h1]
    rfl
  have hn2 := (others_nodes (a := 0) 2 (by omega) (by decide)).trans hn0
  obtain ⟨fs, ht⟩ := loop_tick (lampAfter_ok (inp := entered 2 8002) (s := lamp₀) (by decide +kernel))
  obtain ⟨s₁, f₁, t1, h⟩ := Board.tick_ok ht
  have n1 : (courseNet 3).node 2 = s₁ := radio_node (course_step (k := 2) (by omega)) (by decide) hn2 t1
  have hrun : ((courseNet 3).node 2).tickRun = false := by decide +kernel
  have n3 : (courseNet 4).node 2 = { (courseNet 3).node 2 with tickRun := true } :=
    end_node (course_step (k := 3) (by omega)) rfl
  rcases h with ⟨-, hs', -⟩ | ⟨hf, -⟩
  · rw [n3, n1]; exact hs'.symm
  · rw [n1, hf] at hrun; cases hrun

theorem last_node : (courseNet 43).node 2 = lamp₄.node := by
  have a := others_nodes (a := 4) 23 (by omega) (by decide)
  have b := board_node (k := 27) (by omega) rfl rfl rfl (by decide) (by decide) rfl (by decide +kernel)
    (lampAfter_ok (inp := entered 27 12462) (s := lamp₁) (by decide +kernel)) (a.trans first_node)
  have c := others_nodes (a := 30) 3 (by omega) (by decide)
  have d := board_node (k := 33) (by omega) rfl rfl rfl (by decide) (by decide) rfl (by decide +kernel)
    (lampAfter_ok (inp := entered 33 12862) (s := lamp₂) (by decide +kernel)) (c.trans b)
  have e := others_nodes (a := 36) 4 (by omega) (by decide)
  exact board_node (k := 40) (by omega) rfl rfl rfl (by decide) (by decide) rfl (by decide +kernel)
    (lampAfter_ok (inp := entered 40 13652) (s := lamp₃) (by decide +kernel)) (e.trans d)

/-- What the first master follows all the time. -/
def picture : Packet := (e₀.node 1).setEffectPacket

end ColdDemo

open HwDemo ColdDemo in
/-- A concrete case of C172: device 2 is a board with six LEDs.  The last iteration of the board begins
at 13650 ms, and lights LEDs. -/
theorem first_master_shown_demo :
    Timeline nbrs (fun _ => 0) (fun _ => 0) e₀ ColdDemo.courseNet ColdDemo.courseTime 43 ∧
    HwNet.Masterless e₀ (ColdDemo.courseNet 43) ∧
    FirstMaster 1 (fun _ => 0) e₀ (ColdDemo.courseNet 43) 8000 100 ∧
    AttentiveFrom 8000 1 (fun _ => 0) e₀ ColdDemo.courseNet ColdDemo.courseTime 43 200 ∧
    (∀ i, i ≠ 1 → Introduced i (fun _ => 0) (fun _ => 0) e₀ (ColdDemo.courseNet 43) 8000 100 ∧
      InTouch 1 i (fun _ => 0) (fun _ => 0) e₀ (ColdDemo.courseNet 43) 150 ∧
      OneOf 2 1 i (fun _ => 0) e₀ ColdDemo.courseNet ColdDemo.courseTime 43 60 ∧
      Recent nbrs i (fun _ => 0) e₀ (ColdDemo.courseNet 43) 60 ∧
      Prompt 1 i (fun _ => 0) e₀ (ColdDemo.courseNet 43) 60 ∧
      ∃ e ∈ since e₀ (ColdDemo.courseNet 43) i, Entry.HeardMaster e) ∧
    (∀ e ∈ e₀.hist 1, wall (n := 3) (fun _ => 0) 1 e ≤ ColdDemo.courseTime 0) ∧
    Steady 1 (fun _ => 0) e₀ (ColdDemo.courseNet 43) 8000 ColdDemo.picture ∧
    8000 + 2 * 60 + 2 * (2003 + 3 * 200) < ColdDemo.courseTime 43 ∧
    Complete ColdDemo.picture ∧
    (∃ rand h s, Board.Run lamp (Board.init lamp 0 rand)
        ((s, ColdDemo.entered 40 13652, ColdDemo.lamp₄) :: h) ColdDemo.lamp₄ ∧
      BoardAwake lamp s (ColdDemo.entered 40 13652)) ∧
    (ColdDemo.courseNet 43).node 2 = ColdDemo.lamp₄.node ∧
    (∃ seeds, shippedRegistry .arduino seeds = .ok lamp.registry) ∧ totalLeds lamp.device ≤ 255 ∧
    (ledsInOrder lamp.device).length = 6 ∧
    (∀ k < 6, (ColdDemo.entered 40 13652).clock k = BitVec.ofNat 32 (13652 + k)) ∧
    (∃ col, ColdDemo.lamp₄.leds[1]? = some col ∧ col ≠ ⟨0, 0, 0⟩) := by
  have beats : ∀ e ∈ since e₀ (ColdDemo.courseNet 43) 1, own e = true →
      (Entry.time e).toNat ∈ [8000, 9200, 10400, 11600, 12800] := by decide +kernel
  have gaps : ∀ k < 44, gapless 200 8000 (ColdDemo.courseTime k)
      (((since e₀ (ColdDemo.courseNet k) 1).filter idle).map fun e => (Entry.time e).toNat) = true := by
    decide +kernel
  have intro_ : ∀ i : Fin 3, i ≠ 1 → atSplits (fun e h => decide ((Entry.time e).toNat ≤ 8100) ||
      heardFrom 8000 h) (since e₀ (ColdDemo.courseNet 43) i) = true := by decide +kernel
  have touch : ∀ i : Fin 3, i ≠ 1 → atSplits (fun e h => decide ((Entry.time e).toNat ≤ 11750) ||
      decide ((Entry.time e).toNat ≤ 12950) && heardFrom 8000 h || heardFrom 9200 h)
      (since e₀ (ColdDemo.courseNet 43) i) = true := by decide +kernel
  have turned : ∃ a ∈ since e₀ (ColdDemo.courseNet 43) 1, a.pre.getCurrentState = .slave ∧
      a.post.getCurrentState = .master ∧ (Entry.time a).toNat = 8000 := by decide +kernel
  have never : ∀ i : Fin 3, i ≠ 1 → ∀ e ∈ since e₀ (ColdDemo.courseNet 43) i,
      e.post.getCurrentState = .slave := by decide +kernel
  have reps : ∀ k < 44, ∀ b ∈ since e₀ (ColdDemo.courseNet k) 1, ∀ q ∈ Entry.transmitted b,
      q.type = b.pre.setEffectPacket.type → (Entry.time b).toNat ∈ [10200, 12400] := by decide +kernel
  have hears : ∀ k < 44, 12460 < ColdDemo.courseTime k → ∀ i : Fin 3, i ≠ 1 →
      ∀ b ∈ since e₀ (ColdDemo.courseNet k) 1, (Entry.time b).toNat = 12400 →
      ((Entry.transmitted b).all fun q => (since e₀ (ColdDemo.courseNet k) i).any fun e =>
        ((Entry.heard e).any fun p => decide (Carries p q)) &&
        decide (12400 ≤ (Entry.time e).toNat) && decide ((Entry.time e).toNat ≤ 12460)) = true := by
    decide +kernel
  have recent : ∀ i : Fin 3, i ≠ 1 → i ∈ nbrs 1 ∧ ∀ e ∈ since e₀ (ColdDemo.courseNet 43) i,
      ((Entry.heard e).all fun p => decide (IsInstruction p) == false ||
        (since e₀ (ColdDemo.courseNet 43) 1).any fun b => decide ((Entry.time e).toNat ≤
          (Entry.time b).toNat + 60) && (Entry.transmitted b).any fun q =>
            (ColdDemo.courseNet 43).air.any fun a => sends q a.2 && decide (decodes a.2 p)) = true := by
    decide +kernel
  have prompt : ∀ i : Fin 3, i ≠ 1 → ∀ e ∈ since e₀ (ColdDemo.courseNet 43) i,
      ((Entry.heard e).all fun p => (since e₀ (ColdDemo.courseNet 43) 1).all fun b =>
        (Entry.transmitted b).all fun q => decide (q.type ≠ .heartbeat) ||
          decide (¬ Carries p q) || decide ((Entry.time e).toNat ≤ (Entry.time b).toNat + 60)) = true := by
    decide +kernel
  have ever : ∀ i : Fin 3, i ≠ 1 → ∃ e ∈ since e₀ (ColdDemo.courseNet 43) i, Entry.HeardMaster e := by
    decide +kernel
  have still : (∀ i, ∀ e ∈ since e₀ (ColdDemo.courseNet 43) i, 8000 ≤ (Entry.time e).toNat →
      (match e.op with | .setEffect _ _ => false | _ => true) = true) ∧
      ∀ e ∈ since e₀ (ColdDemo.courseNet 43) 1, 8000 ≤ (Entry.time e).toNat →
        SameContent e.post.getSetEffect ColdDemo.picture := by decide +kernel
  refine ⟨ColdDemo.course_timeline,
    fun j => .inl (by revert j; decide +kernel), ⟨?_, ?_⟩, ?_, fun i hi => ⟨?_, ?_, ?_, ?_, ?_, ever i hi⟩,
    by decide +kernel, ⟨fun i e he hx now p ho => ?_,
      fun e he hx => still.2 e he (by rwa [wall_zero] at hx)⟩, by decide +kernel, .inl (by decide +kernel),
    ⟨_, _, _, ColdDemo.lamp_run, fun h => (by cases h)⟩, ColdDemo.last_node, ⟨_, Board.Demo.env_shipped .node⟩,
    by decide +kernel, by decide +kernel, by decide +kernel, by decide +kernel⟩
  · obtain ⟨a, ha, h1, h2, h3⟩ := turned
    exact ⟨a, ha, ⟨h1, h2⟩, by rw [wall_zero, h3]⟩
  · intro i hi e he hp
    have := never i hi e he
    rw [hp.2] at this; cases this
  · intro k hk x h0 hx
    obtain ⟨t, ht, h1, h2⟩ := gapless_sound (gaps k (by omega)) h0 hx
    rw [List.mem_map] at ht
    obtain ⟨e, he, rfl⟩ := ht
    rw [List.mem_filter] at he
    obtain ⟨h3, h4⟩ := idle_iff.1 he.2
    exact ⟨e, he.1, h3, h4, by simp only [wall_zero]; omega, by simp only [wall_zero]; omega⟩
  · intro h₁ e h₂ hsp hlt
    have := atSplits_sound (intro_ i hi) hsp
    simp only [wall_zero] at hlt
    rw [Bool.or_eq_true, decide_eq_true_eq] at this
    rcases this with h | h
    · omega
    · obtain ⟨t, h1, h2⟩ := heardFrom_sound (boot := 0) (g := e₀.hist i) h
      exact ⟨t, h1, by omega⟩
  · intro h₁ e h₂ hsp a b c d ha hb hc hd oa ob oc od l1 l2 l3 l4
    have ea := beats a ha (own_iff.2 oa)
    have eb := beats b hb (own_iff.2 ob)
    have ec := beats c hc (own_iff.2 oc)
    have ed := beats d hd (own_iff.2 od)
    simp only [List.mem_cons, List.not_mem_nil, or_false] at ea eb ec ed
    simp only [wall_zero] at l1 l2 l3 l4 ⊢
    have := atSplits_sound (touch i hi) hsp
    simp only [Bool.or_eq_true, Bool.and_eq_true, decide_eq_true_eq] at this
    rcases this with (h | ⟨h, h'⟩) | h'
    · omega
    · obtain ⟨t, h1, h2⟩ := heardFrom_sound (boot := 0) (g := e₀.hist i) h'
      exact ⟨t, h1, by omega⟩
    · obtain ⟨t, h1, h2⟩ := heardFrom_sound (boot := 0) (g := e₀.hist i) h'
      exact ⟨t, h1, by omega⟩
  · intro k hk bs hl hb hpw
    obtain ⟨a, b, rfl⟩ := two_of_length hl
    obtain ⟨a1, ⟨qa, a2⟩, a3⟩ := hb a (by simp)
    obtain ⟨b1, ⟨qb, b2⟩, b3⟩ := hb b (by simp)
    have ta := reps k (by omega) a a1 qa (by rw [a2.sent]; simp) a2.same.1
    have tb := reps k (by omega) b b1 qb (by rw [b2.sent]; simp) b2.same.1
    have hab := (List.pairwise_cons.1 hpw).1 b (by simp)
    simp only [wall_zero] at hab a3 b3
    simp only [List.mem_cons, List.not_mem_nil, or_false] at ta tb
    have htb : (Entry.time b).toNat = 12400 := by omega
    have := hears k (by omega) (by omega) i hi b b1 htb
    rw [List.all_eq_true] at this
    have := this qb (by rw [b2.sent]; simp)
    rw [List.any_eq_true] at this
    obtain ⟨e, he, h⟩ := this
    rw [Bool.and_eq_true, Bool.and_eq_true, Option.any_eq_true] at h
    obtain ⟨⟨h1, h2⟩, h3⟩ := h
    have h2 := of_decide_eq_true h2
    have h3 := of_decide_eq_true h3
    obtain ⟨p, hp, hc⟩ := h1
    exact ⟨b, by simp, qb, b2, e, he, p, hp, of_decide_eq_true hc, by simp only [wall_zero]; omega,
      by simp only [wall_zero]; omega⟩
  · intro e he p hp hpi
    obtain ⟨hn, hr⟩ := recent i hi
    have := hr e he
    rw [hp] at this
    simp only [Option.all_some, Bool.or_eq_true, beq_iff_eq, decide_eq_false_iff_not, List.any_eq_true,
      Bool.and_eq_true, decide_eq_true_eq] at this
    rcases this with h | ⟨b, hb, hw, q, hq, a, _, hs, hd⟩
    · exact absurd hpi h
    · exact ⟨1, hn, b, hb, q, hq, a.2, sends_ok hs, decodes_ok hd, by simp only [wall_zero]; omega⟩
  · intro e he p hp b hb q hq hqt hc
    have := prompt i hi e he
    rw [hp] at this
    simp only [Option.all_some, List.all_eq_true, Bool.or_eq_true, decide_eq_true_eq] at this
    rcases this b hb q hq with (h | h) | h
    · exact absurd hqt h
    · exact absurd hc h
    · simpa only [wall_zero] using h
  · have := still.1 i e he (by rwa [wall_zero] at hx)
    rw [ho] at this
    cases this

open HwDemo in
/-- The theorem applies to it: the first LED of the board, computed at 13652. -/
example : ∃ late ≤ 60, ∃ col, ColdDemo.lamp₄.leds[1]? = some col ∧ ∀ now,
    Shows ⟨lamp.F, .arduino, lamp.registry, ColdDemo.picture, now⟩ (ledsInOrder lamp.device)[0].1
      (ledsInOrder lamp.device)[0].2
      (((ColdDemo.courseNet 43).node 1).getNetworkMillis 13652 - BitVec.ofNat 32 late) col := by
  obtain ⟨t, hnone, first, at_, h, past, steady, late, hc, ⟨rand, g, s, hb, ha⟩, hn, ⟨seeds, hs⟩, h255, -,
    hk, -⟩ := first_master_shown_demo
  obtain ⟨-, -, h1, h2, h3, h4⟩ := h 2 (by decide)
  obtain ⟨d, hd, hshow⟩ := first_master_shown t (by decide) hnone first at_ (fun i hi => (h i hi).1)
    (fun i hi => (h i hi).2.1) (by decide) past (i := 2) (by decide) h3 h4 h1 h2 (by decide +kernel)
    (Nat.le_refl _) steady hc late hb hn ha hs h255
  obtain ⟨col, hcol, hsh⟩ := hshow 0 (by decide +kernel) 13652 (by decide +kernel) (hk 0 (by decide))
  exact ⟨d, hd, col, hcol, hsh⟩

end Firefly.Props
