import Verif.Spec.Chosen
import Verif.Props.Follow
import Verif.Props.Rotation

/-! # Where a choice has to be entered (C153) -/

namespace Firefly.Props
open Spec

section

variable {n : Nat} {nbrs : Fin n → List (Fin n)} {on : Fin n → Nat} {boot : Fin n → U32}
  {net₀ : HwNet n} {net : Nat → HwNet n} {T : Nat → Nat} {N : Nat}

/-- What a master that was given an instruction in `e` does until its time is over. -/
theorem keeps_given {m : Fin n} (t : Timeline nbrs on boot net₀ net T N) {k : Nat} (hk : k ≤ N)
    (st : Settled nbrs net₀ m (net k)) {e : Entry} {h₁ h₂ : List Entry}
    (hsp : since net₀ (net k) m = h₁ ++ e :: h₂) (hu : ∀ a ∈ h₁, Untold a)
    (hd : e.post.timers.changeEffect = 0 ∨ T k ≤ on m + e.post.timers.changeEffect.toNat) :
    (∀ a ∈ h₁, SameContent a.pre.getSetEffect e.post.getSetEffect ∧
      SameContent a.post.getSetEffect e.post.getSetEffect ∧
      a.pre.timers.changeEffect = e.post.timers.changeEffect) ∧
      SameContent ((net k).node m).getSetEffect e.post.getSetEffect := by
  have hh := Timeline.hist t hk m
  rw [hsp, List.append_assoc, List.cons_append] at hh
  obtain ⟨ra, ju, ju', x⟩ := Timeline.run_at t hk m
  rw [hh] at x
  obtain ⟨x0, x1, x2⟩ := exec_split x
  have wf := Node.step_wf (x0.wf .init) x1
  have all : ∀ a ∈ h₁, Undisturbed a ∧ (e.post.timers.changeEffect = 0 ∨
      (Entry.time a).toNat ≤ e.post.timers.changeEffect.toNat) := by
    intro a ha
    have hin : a ∈ since net₀ (net k) m := by rw [hsp]; exact List.mem_append_left _ ha
    refine ⟨⟨hu a ha, ?_⟩, hd.imp id fun h => ?_⟩
    · rintro ⟨h1, -⟩
      have h1 : a.pre.state = .slave := h1
      have := (st.roles m a hin).1
      rw [h1, roleIn, if_pos rfl] at this
      cases this
    · have := (Timeline.past t hk hin).1
      unfold wall at this; omega
  refine ⟨fun a ha => ?_, (hold wf x2 all).2.1⟩
  obtain ⟨g₁, g₂, rfl⟩ := List.append_of_mem ha
  obtain ⟨y0, y1, -⟩ := exec_split x2
  have b1 := hold wf y0 fun b hb => all b (by simp [hb])
  have b2 := hold wf (.cons _ y0 y1) fun b hb => all b (by
    rcases List.mem_cons.1 hb with rfl | hb
    · simp
    · simp [hb])
  exact ⟨b1.2.1, b2.2.1, b1.1⟩

/-- What has happened stays in the history. -/
theorem since_mono (t : Timeline nbrs on boot net₀ net T N) (i : Fin n) {a : Entry} {k₁ : Nat} :
    ∀ d, k₁ + d ≤ N → a ∈ since net₀ (net k₁) i → a ∈ since net₀ (net (k₁ + d)) i := by
  intro d
  induction d with
  | zero => exact fun _ h => h
  | succ d ih =>
    intro hd ha
    have ha := ih (by omega) ha
    obtain ⟨j, op, h1, h2, h3⟩ := step_hist (t.step (k₁ + d) hd)
    rw [← Nat.add_assoc]
    by_cases hi : i = j
    · subst hi
      rw [since_cons (Timeline.hist t (by omega) i) h1]
      exact List.mem_cons_of_mem _ ha
    · rw [since_same (h3 i hi).1]; exact ha

/-- Slaves that are told nothing from some time on keep what they follow. -/
theorem untold_keeps {m i : Fin n} (t : Timeline nbrs on boot net₀ net T N) {k : Nat} (hk : k ≤ N)
    (st : Settled nbrs net₀ m (net k)) (hi : i ≠ m) {w : Nat}
    (hu : ∀ a ∈ since net₀ (net k) i, w < wall on i a → Untold a) {k₁ : Nat} (hw : w < T k₁) :
    ∀ d, k₁ + d ≤ k → w < T (k₁ + d) ∧
      ((net (k₁ + d)).node i).getSetEffect = ((net k₁).node i).getSetEffect := by
  intro d
  induction d with
  | zero => exact fun _ => ⟨hw, rfl⟩
  | succ d ih =>
    intro hd
    obtain ⟨ih1, ih2⟩ := ih (by omega)
    have ho := t.order (k₁ + d) (by omega)
    rw [← Nat.add_assoc]
    refine ⟨by omega, ?_⟩
    obtain ⟨j, op, h1, h2, h3⟩ := step_hist (t.step (k₁ + d) (by omega))
    by_cases hij : i = j
    · subst hij
      have hin := since_mono t i (a := ⟨(net (k₁ + d)).node i, op, (net (k₁ + d + 1)).node i⟩)
        (k₁ := k₁ + d + 1) (k - (k₁ + d + 1)) (by omega)
        (by rw [since_cons (Timeline.hist t (by omega) i) h1]; exact List.mem_cons_self)
      rw [show k₁ + d + 1 + (k - (k₁ + d + 1)) = k by omega] at hin
      have hun := hu _ hin (by rw [t.time _ (by omega) i _ h1]; omega)
      have hsl := (st.roles i _ hin).1
      rw [roleIn, if_neg hi] at hsl
      have wf := (Timeline.run_at t (show k₁ + d ≤ N by omega) i).wf
      rw [← ih2]
      exact slave_untold wf (.cons op .nil h2)
        (fun a ha => by rw [List.mem_singleton.1 ha]; exact hsl)
        (fun a ha => by rw [List.mem_singleton.1 ha]; exact hun)
    · rw [(h3 i hij).2]; exact ih2

/-- C153, first part.  As in C142, let the only master `m` find time for its own business once in
`D` ms, let every other device hear at least one of any four of its heartbeats, and let no instruction
be heard more than `L'` ms after it was sent.  If the last choice of all is `p`, entered on the master
at the time `x`, then until `x + heldFor p` the master follows it, and so does, from
`x + 1 + 2 L' + K (2003 + 3 D)` on, every device that hears at least one of any `K` repetitions. -/
theorem choice_on_master_followed {m : Fin n} {D L L' K : Nat}
    (t : Timeline nbrs on boot net₀ net T N)
    (j : JustHeard m on boot net₀ (T 0)) (hself : m ∉ nbrs m) (at_ : Attentive m on net₀ net T N D)
    (one : ∀ i, i ≠ m → OneOfFour m i on net₀ net T N L) (hDL : 4 * (1001 + D) + L ≤ 5000)
    {k : Nat} (hk : k ≤ N) (recent : ∀ i, Recent nbrs i on net₀ (net k) L') {e : Entry} {p : Packet}
    (choice : LastOnMaster m on net₀ (net k) L' e p)
    (early : T k ≤ wall on m e + heldFor p) :
    SameContent ((net k).node m).getSetEffect p ∧
    ∀ i, i ≠ m → OneOf K m i on net₀ net T N L' →
      wall on m e + 1 + 2 * L' + K * (2003 + 3 * D) < T k →
      Carries ((net k).node i).getSetEffect p := by
  have st := settled t.reach hself j.sole (Timeline.steps t hk) (Timeline.keeps t j hself at_ one hDL hk)
  obtain ⟨⟨now, hop⟩, ⟨h₁, h₂, hsp, hlast⟩, hothers⟩ := choice
  have hin : e ∈ since net₀ (net k) m := by rw [hsp]; simp
  have hh := Timeline.hist t hk m
  rw [hsp, List.append_assoc, List.cons_append] at hh
  have cl := Timeline.clocks t hk m
  rw [hh] at cl
  obtain ⟨o1, o2, o3⟩ := clock_ordered cl
  obtain ⟨ra, ju, ju', x⟩ := Timeline.run_at t hk m
  rw [hh] at x
  obtain ⟨x0, x1, x2⟩ := exec_split x
  have wf := x0.wf .init
  -- the master hears of nothing else
  have hu : ∀ a ∈ h₁, Untold a := by
    intro a ha
    have hain : a ∈ since net₀ (net k) m := by rw [hsp]; exact List.mem_append_left _ ha
    refine ⟨fun now q ho => hlast a ha ⟨now, q, ho⟩, fun q hq hqi => ?_⟩
    obtain ⟨j', hj, b, hb, r, hr, f, hf, hd, hw⟩ := recent m a hain q hq hqi
    have hj' : j' ≠ m := by rintro rfl; exact hself hj
    rcases (settled_sender (Timeline.reach_at t hk) st hb hr hf hd hqi).2 with h | ⟨now, q, ho⟩
    · exact hj' h
    · have h1 := hothers j' hj' b hb ⟨now, q, ho⟩
      have h2 := o1 a ha
      unfold wall at *; omega
  have hst : SameContent e.post.getSetEffect p ∧
      e.post.timers.changeEffect.toNat = (Entry.time e).toNat + heldFor p := by
    have hw : (Entry.time e).toNat + 255000 < 2 ^ 32 := o3.cons.2.1
    cases in_step wf x1 with
    | locally p' hop' _ hc _ hce =>
      rw [hop] at hop'; cases hop'
      refine ⟨hc, ?_⟩
      rw [hce]
      unfold heldFor
      have hte : e.op.time = Entry.time e := rfl
      rw [hte]
      split
      · rw [Node.add_toNat hw (by decide)]; rfl
      · rename_i h0
        have h1 := Node.delay_toNat p.data[1]
        have h2 := p.data[1].isLt
        have h3 : (BitVec.setWidth 32 p.data[1] * 1000 : U32).toNat = p.data[1].toNat * 1000 := h1
        rw [Node.add_toNat hw (by omega), h3]; omega
    | keep hu => exact absurd hop (hu.1 _ _)
    | takeOver hu => exact absurd hop (hu.1 _ _)
    | slaveHeard _ hh' => rw [hop] at hh'; cases hh'
    | masterHeard _ hh' => rw [hop] at hh'; cases hh'
    | change _ hf => obtain ⟨_, _, h⟩ := hf.tick; have h : e.op = _ := h; rw [hop] at h; cases h
    | repeats _ hf => obtain ⟨_, _, h⟩ := hf.tick; have h : e.op = _ := h; rw [hop] at h; cases h
  obtain ⟨hst1, hst2⟩ := hst
  obtain ⟨kp1, kp2⟩ := keeps_given t hk st hsp hu (.inr (by rw [hst2]; unfold wall at early; omega))
  refine ⟨kp2.trans hst1, fun i hi hears late => ?_⟩
  have hp0 := (Timeline.past t hk hin).2
  refine everybody_follows t j hself at_ one hDL hi hears hk (recent i) (x := wall on m e + 1)
    (by omega) ⟨?_, ?_⟩ late
  · intro i' a ha hw now q ho
    by_cases hi' : i' = m
    · subst hi'
      rw [hsp] at ha
      rcases List.mem_append.1 ha with ha | ha
      · exact hlast a ha ⟨now, q, ho⟩
      · rcases List.mem_cons.1 ha with rfl | ha
        · omega
        · have := o2 a (List.mem_append_left _ ha)
          unfold wall at hw; omega
    · have := hothers i' hi' a ha ⟨now, q, ho⟩
      omega
  · intro a ha hw
    rw [hsp] at ha
    rcases List.mem_append.1 ha with ha | ha
    · exact (kp1 a ha).2.1.trans hst1
    · rcases List.mem_cons.1 ha with rfl | ha
      · omega
      · have := o2 a (List.mem_append_left _ ha)
        unfold wall at hw; omega

/-- C153, second part (refutation for other devices).  In the same network, let `p` be the last
instruction that the master was given, let it have heard `p` by radio at the time `x`, and let no choice
be entered after that.  Until its time is over (for ever, if it names no time) the master
follows `p`.  But from `x + L'` on no other device hears any instruction, so that each goes on with
whatever it followed then. -/
theorem choice_by_radio_not_passed_on {m : Fin n} {D L L' : Nat}
    (t : Timeline nbrs on boot net₀ net T N)
    (j : JustHeard m on boot net₀ (T 0)) (hself : m ∉ nbrs m) (at_ : Attentive m on net₀ net T N D)
    (one : ∀ i, i ≠ m → OneOfFour m i on net₀ net T N L) (hDL : 4 * (1001 + D) + L ≤ 5000)
    {k : Nat} (hk : k ≤ N) (recent : ∀ i, Recent nbrs i on net₀ (net k) L') {e : Entry} {p : Packet}
    (choice : LastByRadio m on net₀ (net k) e p)
    (early : requestedDelay p = 0 ∨ T k ≤ wall on m e + 1000 * requestedDelay p) :
    SameContent ((net k).node m).getSetEffect p ∧
    ∀ i, i ≠ m →
      (∀ a ∈ since net₀ (net k) i, wall on m e + L' < wall on i a → Untold a) ∧
      ∀ k₁ ≤ k, wall on m e + L' < T k₁ →
        ((net k).node i).getSetEffect = ((net k₁).node i).getSetEffect := by
  have st := settled t.reach hself j.sole (Timeline.steps t hk) (Timeline.keeps t j hself at_ one hDL hk)
  obtain ⟨hheard, hpi, ⟨h₁, h₂, hsp, hu⟩, hnone⟩ := choice
  have hin : e ∈ since net₀ (net k) m := by rw [hsp]; simp
  have inv := hwInv_reach (Timeline.reach_at t hk)
  have hh := Timeline.hist t hk m
  rw [hsp, List.append_assoc, List.cons_append] at hh
  have hpl : p.len = 0 := inv.deaf m e (by show e ∈ (net k).hist m; rw [hh]; simp) p hheard
  have cl := Timeline.clocks t hk m
  rw [hh] at cl
  obtain ⟨o1, o2, o3⟩ := clock_ordered cl
  obtain ⟨ra, ju, ju', x⟩ := Timeline.run_at t hk m
  rw [hh] at x
  obtain ⟨x0, x1, x2⟩ := exec_split x
  have wf := x0.wf .init
  have hmaster : e.pre.state = .master := by
    have := (st.roles m e hin).1
    rwa [roleIn, if_pos rfl] at this
  have hst : e.post.getSetEffect = p ∧ (e.post.timers.changeEffect = 0 ∨
      T k ≤ on m + e.post.timers.changeEffect.toNat) := by
    have hw : (Entry.time e).toNat + 255000 < 2 ^ 32 := o3.cons.2.1
    cases in_step wf x1 with
    | masterHeard p' hh' _ _ _ hc _ hce =>
      rw [hheard] at hh'; cases hh'
      refine ⟨hc, ?_⟩
      have key : ∀ d : U8, d.toNat = requestedDelay p →
          e.post.timers.changeEffect = deadline e.op.time d →
          e.post.timers.changeEffect = 0 ∨ T k ≤ on m + e.post.timers.changeEffect.toNat := by
        intro d hd hce
        by_cases hd0 : d = 0
        · left; rw [hce, deadline, if_pos hd0]
        · right
          have h1 := (deadline_toNat (t := e.op.time) hw hd0).2
          have h2 : d.toNat ≠ 0 := fun h => hd0 (BitVec.eq_of_toNat_eq h)
          rw [hce, h1, hd]
          rcases early with h | h
          · omega
          · have hte : Entry.time e = e.op.time := rfl
            unfold wall at h; rw [hte] at h; omega
      unfold requestedDelay at key
      by_cases htype : p.type = .setEffect
      · rw [if_pos htype] at key hce; exact key _ rfl hce
      · rw [if_neg htype] at key hce; exact key _ rfl hce
    | keep hu => exact absurd hpi (hu.2 p hheard)
    | takeOver hu => exact absurd hpi (hu.2 p hheard)
    | locally p' hop =>
      have hheard : Entry.heard ⟨e.pre, e.op, e.post⟩ = some p := hheard
      rw [hop] at hheard; cases hheard
    | slaveHeard _ _ _ hs => rw [hmaster] at hs; cases hs
    | change _ hf => rw [hf.silent] at hheard; cases hheard
    | repeats _ hf => rw [hf.silent] at hheard; cases hheard
  obtain ⟨hst1, hst2⟩ := hst
  obtain ⟨kp1, kp2⟩ := keeps_given t hk st hsp hu hst2
  refine ⟨hst1 ▸ kp2, fun i hi => ?_⟩
  have quiet : ∀ a ∈ since net₀ (net k) i, wall on m e + L' < wall on i a → Untold a := by
    intro a ha hwa
    refine ⟨fun now q ho => ?_, fun q hq hqi => ?_⟩
    · have := hnone i a ha ⟨now, q, ho⟩; omega
    obtain ⟨j', hj, b, hb, r, hr, f, hf, hd, hw⟩ := recent i a ha q hq hqi
    rcases (settled_sender (Timeline.reach_at t hk) st hb hr hf hd hqi).2 with rfl | ⟨now, q, ho⟩
    · have hbh : b ∈ h₁ := by
        rw [hsp] at hb
        rcases List.mem_append.1 hb with hb | hb
        · exact hb
        · rcases List.mem_cons.1 hb with rfl | hb
          · omega
          · have := o2 b (List.mem_append_left _ hb)
            unfold wall at *; omega
      obtain ⟨hlen, -, hc⟩ := decodes_sent hf hd
      have hri : IsInstruction r := by
        unfold IsInstruction at hqi ⊢; rw [← hc.1]; exact hqi
      obtain ⟨c1, c2, c3⟩ := kp1 b hbh
      have hun := hu b hbh
      have hbin : b ∈ (net k).hist j' := by
        rw [st.hist j']; exact List.mem_append_left _ hb
      obtain ⟨g, y', wf', hst', -⟩ := exec_entry x (.init) (hh ▸ hbin)
      cases in_step wf' hst' with
      | keep _ _ _ _ _ _ _ htx => exact htx r hr hri
      | takeOver _ _ _ _ _ _ _ _ _ htx => exact htx r hr hri
      | locally p' hop => exact hun.1 _ _ hop
      | slaveHeard p' hh' hp' => exact hun.2 _ hh' hp'
      | masterHeard p' hh' hp' => exact hun.2 _ hh' hp'
      | change q hf' _ _ hne hlt =>
        rw [c3] at hne hlt
        rcases hst2 with h | h
        · exact hne h
        · have h1 := (Timeline.past t hk hb).1
          have h2 := BitVec.lt_def.1 hlt
          have hte : Entry.time b = b.op.time := rfl
          unfold wall at h1; rw [hte] at h1; omega
      | repeats q hf' =>
        have hq' : r ∈ [q] := hf'.sent ▸ hr
        rw [List.mem_singleton.1 hq', hf'.same.2.1, c1.2.1, hst1, hpl] at hlen
        exact absurd hlen (by decide)
    · have := hnone j' b hb ⟨now, q, ho⟩; omega
  refine ⟨quiet, fun k₁ hk₁ hw => ?_⟩
  have := (untold_keeps t hk st hi quiet hw (k - k₁) (by omega)).2
  rwa [show k₁ + (k - k₁) = k by omega] at this

end

namespace HwDemo

/-- The button of device 1, the master, is pressed at 8100, which nobody hears.  Both others miss the
repetition at 10200 and hear the one at 12400. -/
def scriptM : Script := fun k => if k = 0 then (1, 8100, 1) else script₂ k

/-- The button of device 2 is pressed at 8100, which the master hears at 8150.  Device 0 is not in range
of device 2; it reads what the master relays at 8160 and its repetition at 12450. -/
def scriptR : Script := fun k =>
  if k = 0 then (2, 8100, 1)
  else if k = 1 then (1, 8150, 6)
  else if k = 2 then (0, 8160, 3)
  else if k = 25 then (0, 12450, 3)
  else if k = 26 then (2, 12460, 3)
  else script₂ (k - 2)

/-- The times of the heartbeats of the master. -/
theorem one_of {s : Script} {N : Nat}
    (beats : ∀ k < N + 1, ∀ e ∈ since c₀ (alongNet s k) 1, own e = true →
      (Entry.time e).toNat ∈ [9200, 10400, 11600, 12800])
    (heard : ∀ k < N + 1, 12950 < alongTime s k → ∀ i : Fin 3, i ≠ 1 →
      ∃ e ∈ since c₀ (alongNet s k) i, Entry.HeardMaster e ∧ 9200 ≤ (Entry.time e).toNat ∧
        (Entry.time e).toNat ≤ 12950) :
    ∀ i, i ≠ 1 → OneOfFour 1 i (fun _ => 0) c₀ (alongNet s) (alongTime s) N 150 := by
  intro i hi k hk a b c d ha hb hc hd oa ob oc od h1 h2 h3 h4
  have ea := beats k (by omega) a ha (own_iff.2 oa)
  have eb := beats k (by omega) b hb (own_iff.2 ob)
  have ec := beats k (by omega) c hc (own_iff.2 oc)
  have ed := beats k (by omega) d hd (own_iff.2 od)
  simp only [List.mem_cons, List.not_mem_nil, or_false] at ea eb ec ed
  simp only [wall_zero] at h1 h2 h3 h4 ⊢
  obtain ⟨e, he, e1, e2, e3⟩ := heard k (by omega) (by omega) i hi
  exact ⟨e, he, e1, by omega, by omega⟩

theorem recent_of {s : Script} {N : Nat} {i : Fin 3}
    (h : ∀ e ∈ since c₀ (alongNet s N) i, ((Entry.heard e).all fun p =>
      decide (IsInstruction p) == false || ([0, 1, 2] : List (Fin 3)).any fun j => decide (i ∈ nbrs j) &&
        (since c₀ (alongNet s N) j).any fun b => decide ((Entry.time e).toNat ≤
          (Entry.time b).toNat + 60) && (Entry.transmitted b).any fun q =>
            (alongNet s N).air.any fun a => sends q a.2 && decide (decodes a.2 p)) = true) :
    Recent nbrs i (fun _ => 0) c₀ (alongNet s N) 60 := by
  intro e he p hp hpi
  have := h e he
  rw [hp] at this
  simp only [Option.all_some, Bool.or_eq_true, beq_iff_eq, decide_eq_false_iff_not, List.any_eq_true,
    Bool.and_eq_true, decide_eq_true_eq] at this
  rcases this with h | ⟨j, -, hj, b, hb, hw, q, hq, a, _, hs, hd⟩
  · exact absurd hpi h
  · exact ⟨j, hj, b, hb, q, hq, a.2, sends_ok hs, decodes_ok hd, by simp only [wall_zero]; omega⟩

/-- Executable form of `Entered`. -/
def enters (e : Entry) : Bool := match e.op with | .setEffect _ _ => true | _ => false

theorem enters_iff {e : Entry} : enters e = true ↔ Entered e := by
  obtain ⟨pre, op, post⟩ := e
  cases op <;> simp [enters, Entered]

/-- The history of the master, newest first, up to the last step in which something was entered. -/
theorem split_last {P : Entry → Bool} : ∀ {l : List Entry}, l.any P = true →
    ∃ h₁ e h₂, l = h₁ ++ e :: h₂ ∧ P e = true ∧ ∀ a ∈ h₁, P a = false
  | [], h => by cases h
  | a :: l, h => by
    cases ha : P a with
    | true => exact ⟨[], a, l, rfl, ha, by simp⟩
    | false =>
      rw [List.any_cons, ha, Bool.false_or] at h
      obtain ⟨h₁, e, h₂, rfl, h1, h2⟩ := split_last h
      refine ⟨a :: h₁, e, h₂, rfl, h1, fun b hb => ?_⟩
      rcases List.mem_cons.1 hb with rfl | hb
      · exact ha
      · exact h2 b hb

end HwDemo

end Firefly.Props
