import Verif.Spec.Traffic
import Verif.Props.Repetition
import Verif.Props.Robust
import Verif.Props.Takeover

/-! # How much a device transmits (C177) -/

namespace Firefly.Props
open Spec

/-! ### Counting -/

theorem tally_nil (P : Entry → Prop) : tally P [] = 0 := rfl

theorem tally_pos {P : Entry → Prop} {e : Entry} (h : P e) (w : List Entry) : tally P (e :: w) = tally P w + 1 := by
  rw [tally, List.countP_cons_of_pos (by simpa using h), tally]

theorem tally_neg {P : Entry → Prop} {e : Entry} (h : ¬ P e) (w : List Entry) : tally P (e :: w) = tally P w := by
  rw [tally, List.countP_cons_of_neg (by simpa using h), tally]

theorem tally_mono (P : Entry → Prop) (e : Entry) (w : List Entry) : tally P w ≤ tally P (e :: w) := by
  by_cases h : P e
  · rw [tally_pos h]; omega
  · rw [tally_neg h]; omega

theorem tally_zero {P : Entry → Prop} {w : List Entry} (h : ∀ e ∈ w, ¬ P e) : tally P w = 0 := by
  induction w with
  | nil => rfl
  | cons e w ih => rw [tally_neg (h e List.mem_cons_self), ih fun x hx => h x (List.mem_cons_of_mem _ hx)]

theorem tally_of_imp {P Q : Entry → Prop} {w : List Entry} (h : ∀ e ∈ w, P e → Q e) : tally P w ≤ tally Q w := by
  induction w with
  | nil => exact Nat.le_refl _
  | cons e w ih =>
    have ih := ih fun x hx => h x (List.mem_cons_of_mem _ hx)
    by_cases hp : P e
    · rw [tally_pos hp, tally_pos (h e List.mem_cons_self hp)]; omega
    · rw [tally_neg hp]; exact Nat.le_trans ih (tally_mono Q e w)

theorem traffic_cons (e : Entry) (w : List Entry) :
    traffic (e :: w) = (Entry.transmitted e).length + traffic w := by
  simp [traffic]

/-- Steps that are more than `g` ms apart. -/
theorem spaced_count {P : Entry → Prop} {g a : Nat} : ∀ {w : List Entry} {b : Nat},
    (w.Pairwise fun e e' => P e → P e' → (Entry.time e').toNat + g < (Entry.time e).toNat) →
    (∀ e ∈ w, a ≤ (Entry.time e).toNat ∧ (P e → (Entry.time e).toNat ≤ b)) → a ≤ b →
    tally P w * g ≤ (b - a) + g
  | [], b, _, _, _ => by rw [tally_nil]; omega
  | e :: w, b, h, hb, hab => by
    obtain ⟨h1, h2⟩ := List.pairwise_cons.1 h
    by_cases hp : P e
    · rw [tally_pos hp]
      by_cases hz : ∀ e' ∈ w, ¬ P e'
      · rw [tally_zero hz]; omega
      · obtain ⟨e', he', hp'⟩ : ∃ e' ∈ w, P e' := by
          apply Classical.byContradiction
          intro hc
          exact hz fun x hx hpx => hc ⟨x, hx, hpx⟩
        have k := h1 e' he' hp hp'
        have k1 := (hb e' (List.mem_cons_of_mem _ he')).1
        have k2 := (hb e List.mem_cons_self).2 hp
        have ih := spaced_count (b := (Entry.time e).toNat - g) h2
          (fun x hx => ⟨(hb x (List.mem_cons_of_mem _ hx)).1, fun hpx => by
            have := h1 x hx hp hpx
            omega⟩) (by omega)
        rw [Nat.add_mul]
        omega
    · rw [tally_neg hp]
      exact spaced_count h2 (fun x hx => hb x (List.mem_cons_of_mem _ hx)) hab

theorem count_div {n g x : Nat} (hg : 0 < g) (h : n * g ≤ x + g) : n ≤ x / g + 1 := by
  rw [← Nat.add_div_right _ hg]
  exact (Nat.le_div_iff_mul_le hg).2 h

/-! ### One step -/

/-- In this step the device, hearing nothing, transmitted something else than a heartbeat. -/
def Announces (e : Entry) : Prop :=
  Entry.IsTick e ∧ Entry.heard e = none ∧ Entry.transmitted e ≠ [] ∧ ¬ Entry.OwnHeartbeat e

/-- A master hears a heartbeat. -/
def MasterHearsBeat (e : Entry) : Prop :=
  e.pre.getCurrentState = .master ∧ ∃ p, Entry.heard e = some p ∧ p.type = .heartbeat

/-- A master hears an instruction. -/
def MasterHearsWord (e : Entry) : Prop :=
  e.pre.getCurrentState = .master ∧ ∃ p, Entry.heard e = some p ∧ IsInstruction p

theorem tally_hears (w : List Entry) :
    tally MasterHearsBeat w + tally MasterHearsWord w ≤ tally MasterHears w := by
  induction w with
  | nil => exact Nat.le_refl _
  | cons e w ih =>
    by_cases h1 : MasterHearsBeat e
    · have h2 : ¬ MasterHearsWord e := by
        rintro ⟨_, q, hq, hi⟩
        obtain ⟨_, p, hp, ht⟩ := h1
        rw [hp] at hq
        cases hq
        rcases hi with hi | hi <;> rw [ht] at hi <;> cases hi
      have h3 : MasterHears e := ⟨h1.1, by obtain ⟨p, hp, ht⟩ := h1.2; exact ⟨p, hp, Or.inl ht⟩⟩
      rw [tally_pos h1, tally_neg h2, tally_pos h3]
      omega
    · rw [tally_neg h1]
      by_cases h2 : MasterHearsWord e
      · have h3 : MasterHears e := ⟨h2.1, by obtain ⟨p, hp, ht⟩ := h2.2; exact ⟨p, hp, Or.inr ht⟩⟩
        rw [tally_pos h2, tally_pos h3]
        omega
      · rw [tally_neg h2]
        exact Nat.le_trans ih (tally_mono _ e w)

theorem silent_op {plat : Platform} {s s' : Node} {op : Op} (hst : Op.step plat op s = .ok s')
    (h : ¬ Entry.IsTick ⟨s, op, s'⟩) (h' : ¬ Requested ⟨s, op, s'⟩) : Entry.transmitted ⟨s, op, s'⟩ = [] := by
  cases op with
  | radioTick now rx => exact absurd ⟨now, rx, rfl⟩ h
  | setEffect now p => exact absurd ⟨now, p, rfl⟩ h'
  | setNumPalettes now n => cases hst; simp [Entry.transmitted, Node.setNumPalettes]
  | setNumEffects now n => cases hst; simp [Entry.transmitted, Node.setNumEffects]
  | endTick now => cases hst; simp [Entry.transmitted]

theorem request_sends {plat : Platform} {s s' : Node} {op : Op} (wf : s.WF) (hst : Op.step plat op s = .ok s')
    (h : Requested ⟨s, op, s'⟩) :
    (Entry.transmitted ⟨s, op, s'⟩).length = 1 ∧ Entry.heard ⟨s, op, s'⟩ = none ∧ s'.state = s.state := by
  obtain ⟨now, p, rfl⟩ := h
  cases in_step wf hst with
  | locally p' hop hs _ _ _ _ _ htx => exact ⟨by rw [htx]; rfl, rfl, hs⟩
  | keep hu => exact absurd rfl (hu.1 now p)
  | takeOver hu => exact absurd rfl (hu.1 now p)
  | slaveHeard p' hh => cases hh
  | masterHeard p' hh => cases hh
  | change q hf => obtain ⟨_, _, h⟩ := hf.tick; cases h
  | repeats q hf => obtain ⟨_, _, h⟩ := hf.tick; cases h

theorem step_traffic {plat t₀ h} {s s' : Node} {op : Op} (r : Run plat t₀ h s) (hst : Op.step plat op s = .ok s')
    (w : List Entry) :
    (Entry.transmitted ⟨s, op, s'⟩).length + (tally HearsNew w + tally MasterHearsBeat w + tally Requested w +
        tally Entry.OwnHeartbeat w + tally Announces w) ≤
      tally HearsNew (⟨s, op, s'⟩ :: w) + tally MasterHearsBeat (⟨s, op, s'⟩ :: w) +
        tally Requested (⟨s, op, s'⟩ :: w) + tally Entry.OwnHeartbeat (⟨s, op, s'⟩ :: w) +
        tally Announces (⟨s, op, s'⟩ :: w) := by
  have m1 := tally_mono HearsNew ⟨s, op, s'⟩ w
  have m2 := tally_mono MasterHearsBeat ⟨s, op, s'⟩ w
  have m3 := tally_mono Requested ⟨s, op, s'⟩ w
  have m4 := tally_mono Entry.OwnHeartbeat ⟨s, op, s'⟩ w
  have m5 := tally_mono Announces ⟨s, op, s'⟩ w
  by_cases ht : Entry.IsTick ⟨s, op, s'⟩
  · obtain ⟨now, rx, hop⟩ := ht
    simp only at hop
    subst hop
    obtain ⟨b1, b2, _, _⟩ := bounded_work r hst
    cases hd : s.delivered rx with
    | none =>
      have hh : Entry.heard ⟨s, .radioTick now rx, s'⟩ = none := by rw [heard_tick r.wf, hd]
      have hl := b1 (quiet_of_delivered hd)
      by_cases he : Entry.transmitted ⟨s, .radioTick now rx, s'⟩ = []
      · rw [he, List.length_nil]; omega
      · by_cases ho : Entry.OwnHeartbeat ⟨s, .radioTick now rx, s'⟩
        · rw [tally_pos ho]; omega
        · rw [tally_pos (P := Announces) ⟨⟨now, rx, rfl⟩, hh, he, ho⟩]; omega
    | some p =>
      have hh : Entry.heard ⟨s, .radioTick now rx, s'⟩ = some p := by rw [heard_tick r.wf, hd]
      rw [tally_pos (P := HearsNew) ⟨p, hh⟩]
      rcases b2 p (hears_of_delivered r.wf hd) with b | ⟨c, b, _, hp, hm, _⟩
      · rw [b, List.length_singleton]; omega
      · rw [b, tally_pos (P := MasterHearsBeat) ⟨hm, p, hh, hp⟩]
        simp only [List.length_cons, List.length_nil]
        omega
  · by_cases hq : Requested ⟨s, op, s'⟩
    · rw [(request_sends r.wf hst hq).1, tally_pos hq]; omega
    · rw [silent_op hst ht hq, List.length_nil]; omega

theorem traffic_split {plat t₀ h} : ∀ {w s}, Run plat t₀ (w ++ h) s →
    traffic w ≤ tally HearsNew w + tally MasterHearsBeat w + tally Requested w + tally Entry.OwnHeartbeat w +
      tally Announces w
  | [], _, _ => Nat.zero_le _
  | ⟨pre, op, post⟩ :: w, s, r => by
    obtain ⟨r', hst, _⟩ := Run.cons_inv (show Run plat t₀ (⟨pre, op, post⟩ :: (w ++ h)) s from r)
    have ih := traffic_split r'
    have := step_traffic r' hst w
    simp only at this
    rw [traffic_cons]
    omega

/-! ### The announcements -/

/-- A slave that hears nothing transmits nothing or takes over. -/
theorem slave_silent {plat : Platform} {s s' : Node} {op : Op} (wf : s.WF) (hst : Op.step plat op s = .ok s')
    (hs : s.state = .slave) : ¬ Announces ⟨s, op, s'⟩ := by
  rintro ⟨⟨now, rx, hop⟩, hh, hne, hno⟩
  simp only at hop
  subst hop
  rw [heard_tick wf] at hh
  cases Node.radioTick_cases wf hst with
  | slaveQuiet => exact hne (by simp [Entry.transmitted])
  | takeOver hd hs ht =>
    refine hno ⟨⟨now, rx, rfl⟩, by rw [heard_tick wf, hh], ?_⟩
    simp only [Entry.transmitted, Node.afterBeginMaster_sent, List.drop_left]
    exact ⟨_, List.mem_singleton_self _, rfl⟩
  | _ => simp_all

theorem secs_le {n : Nat} (h : n < 2 ^ 8) : n % 2 ^ 32 * 1000 % 2 ^ 32 ≤ 255000 := by
  rw [Nat.mod_eq_of_lt (Nat.lt_trans h (by decide))]
  exact Nat.le_trans (Nat.mod_le _ _) (Nat.le_trans (Nat.mul_le_mul_right _ (Nat.le_of_lt_succ h)) (by decide))

theorem deadline_far {now : U32} (hw : now.toNat + 255000 < 2 ^ 32) (d : U8) :
    deadline now d = 0 ∨ now.toNat ≤ (deadline now d).toNat := by
  unfold deadline
  split
  · exact Or.inl rfl
  · right
    have hd : (d.setWidth 32 * 1000 : U32).toNat ≤ 255000 := by
      rw [BitVec.toNat_mul, BitVec.toNat_setWidth, show (1000 : U32).toNat = 1000 from rfl]
      exact secs_le d.isLt
    rw [Node.add_toNat hw hd]
    omega

theorem local_far {now : U32} (hw : now.toNat + 255000 < 2 ^ 32) (d : U8) :
    now.toNat ≤ (now + (if d = 0 then (60000 : U32) else d.setWidth 32 * 1000)).toNat := by
  split
  · rw [Node.add_toNat hw (by decide)]; omega
  · have hd : (d.setWidth 32 * 1000 : U32).toNat ≤ 255000 := by
      rw [BitVec.toNat_mul, BitVec.toNat_setWidth, show (1000 : U32).toNat = 1000 from rfl]
      exact secs_le d.isLt
    rw [Node.add_toNat hw hd]
    omega

theorem takeover_far {now : U32} (hw : now.toNat + 255000 < 2 ^ 32) (seen : U32) :
    (if Node.takeoverDelay now seen = 0 then 0 else now + Node.takeoverDelay now seen) = 0 ∨
      now.toNat ≤ (if Node.takeoverDelay now seen = 0 then (0 : U32) else now + Node.takeoverDelay now seen).toNat := by
  split
  · exact Or.inl rfl
  · right
    have hd : (Node.takeoverDelay now seen).toNat ≤ 255000 := by
      unfold Node.takeoverDelay kChangeEffectInterval
      split
      · decide
      · rename_i hlt
        rw [BitVec.lt_def, Nat.not_lt] at hlt
        rw [BitVec.toNat_sub_of_le (BitVec.le_def.2 hlt)]
        have e : (60000 : U32).toNat = 60000 := rfl
        omega
    rw [Node.add_toNat hw hd]
    omega

/-- The announcements in the steps `w` after time `a` are repetitions and choices; how many of each there can be. -/
structure Announced (g k a b : Nat) (w : List Entry) (s : Node) (R C : Nat) : Prop where
  total : tally Announces w ≤ R + C
  repetitions : R * g ≤ (b - a) + g
  repetitionsDue : s.timers.broadcastEffect ≠ 0 → R * g ≤ s.timers.broadcastEffect.toNat - a
  choices : C * k ≤ (tally MasterHearsWord w + tally Requested w + tally Entry.Promoted w) * k + ((b - a) + k)
  choicesDue : s.timers.changeEffect ≠ 0 →
    C * k ≤ (tally MasterHearsWord w + tally Requested w + tally Entry.Promoted w) * k +
      (s.timers.changeEffect.toNat - a)

theorem due_step {a b t t' n x g : Nat} (hle : t ≤ b) (h : n * g ≤ x + (t - a)) (e : t' = b + g) (ha : a ≤ b) :
    (n + 1) * g ≤ x + ((b - a) + g) ∧ (n + 1) * g ≤ x + (t' - a) := by
  rw [Nat.add_mul]
  omega

theorem more_disturbances {m m' q q' p p' k x y : Nat} (h1 : m ≤ m') (h2 : q ≤ q') (h3 : p ≤ p')
    (h : x ≤ (m + q + p) * k + y) : x ≤ (m' + q' + p') * k + y :=
  Nat.le_trans h (Nat.add_le_add_right (Nat.mul_le_mul_right _ (by omega)) _)

theorem one_more {m m' c k x : Nat} (hd : m + 1 ≤ m') (h : c ≤ m * k + (x + k)) : c ≤ m' * k + x := by
  have := Nat.mul_le_mul_right k hd
  rw [Nat.add_mul] at this
  omega

theorem announced {plat t₀ h a} {g k : Nat} (hg : ∀ t : Nat, t + 2000 = t + g) (hk : ∀ t : Nat, t + 60000 = t + k) :
    ∀ {w s}, Run plat t₀ (w ++ h) s → Clock t₀ (w ++ h) → ProperUse (w ++ h) →
    (∀ e ∈ w, a ≤ (Entry.time e).toNat) → ∀ {b}, a ≤ b → (∀ e ∈ w, (Entry.time e).toNat ≤ b) →
    ∃ R C, Announced g k a b w s R C
  | [], s, _, _, _, _, b, _, _ => by
    refine ⟨0, 0, ⟨Nat.le_refl _, ?_, fun _ => ?_, ?_, fun _ => ?_⟩⟩ <;> rw [Nat.zero_mul] <;> exact Nat.zero_le _
  | ⟨pre, op, post⟩ :: w, s, r, c, p, ha, b, hab, hb => by
    obtain ⟨r', hst, hpost⟩ := Run.cons_inv (show Run plat t₀ (⟨pre, op, post⟩ :: (w ++ h)) s from r)
    obtain ⟨c', hw, _, hle⟩ := Clock.cons (show Clock t₀ (⟨pre, op, post⟩ :: (w ++ h)) from c)
    have p' := (ProperUse.cons (show ProperUse (⟨pre, op, post⟩ :: (w ++ h)) from p)).1
    simp only at r' hst hpost
    subst hpost
    have hat : a ≤ op.time.toNat := ha _ List.mem_cons_self
    have htb : op.time.toNat ≤ b := hb _ List.mem_cons_self
    have hins := r'.instruction p'
    obtain ⟨R, C, i1, i2, i3, i4, i5⟩ := announced hg hk r' c' p' (fun e he => ha e (List.mem_cons_of_mem _ he)) hat
      fun e he => hle e (List.mem_append_left _ he)
    have hw : op.time.toNat + 255000 < 2 ^ 32 := hw
    have wf := r'.wf
    have m1 := tally_mono MasterHearsWord ⟨pre, op, post⟩ w
    have m2 := tally_mono Requested ⟨pre, op, post⟩ w
    have m3 := tally_mono Entry.Promoted ⟨pre, op, post⟩ w
    have hba : op.time.toNat - a ≤ b - a := Nat.sub_le_sub_right htb a
    have i2' : R * g ≤ (b - a) + g := Nat.le_trans i2 (Nat.add_le_add_right hba _)
    have i4' : C * k ≤ (tally MasterHearsWord (⟨pre, op, post⟩ :: w) + tally Requested (⟨pre, op, post⟩ :: w) +
        tally Entry.Promoted (⟨pre, op, post⟩ :: w)) * k + ((b - a) + k) :=
      more_disturbances m1 m2 m3 (Nat.le_trans i4 (Nat.add_le_add_left (Nat.add_le_add_right hba _) _))
    have i5' : pre.timers.changeEffect ≠ 0 → C * k ≤ (tally MasterHearsWord (⟨pre, op, post⟩ :: w) +
        tally Requested (⟨pre, op, post⟩ :: w) + tally Entry.Promoted (⟨pre, op, post⟩ :: w)) * k +
        (pre.timers.changeEffect.toNat - a) := fun h0 => more_disturbances m1 m2 m3 (i5 h0)
    -- a step that announces nothing and in which the rotation is not set
    have same : ¬ Announces ⟨pre, op, post⟩ → post.timers.broadcastEffect = pre.timers.broadcastEffect →
        post.timers.changeEffect = pre.timers.changeEffect →
        ∃ R C, Announced g k a b (⟨pre, op, post⟩ :: w) post R C := by
      intro hn e1 e2
      exact ⟨R, C, ⟨by rw [tally_neg hn]; exact i1, i2', by rw [e1]; exact i3, i4', by rw [e2]; exact i5'⟩⟩
    -- a step that announces nothing and in which the rotation is set anew
    have anew : ¬ Announces ⟨pre, op, post⟩ →
        (post.timers.broadcastEffect = pre.timers.broadcastEffect ∨
          op.time.toNat + 2000 = post.timers.broadcastEffect.toNat) →
        (post.timers.changeEffect = 0 ∨ op.time.toNat ≤ post.timers.changeEffect.toNat) →
        tally MasterHearsWord w + tally Requested w + tally Entry.Promoted w + 1 ≤
          tally MasterHearsWord (⟨pre, op, post⟩ :: w) + tally Requested (⟨pre, op, post⟩ :: w) +
            tally Entry.Promoted (⟨pre, op, post⟩ :: w) →
        ∃ R C, Announced g k a b (⟨pre, op, post⟩ :: w) post R C := by
      intro hn e1 e2 hd
      refine ⟨R, C, ⟨by rw [tally_neg hn]; exact i1, i2', ?_, i4', ?_⟩⟩
      · rcases e1 with e1 | e1
        · rw [e1]; exact i3
        · intro _
          rw [← e1, hg, Nat.sub_add_comm hat]; exact i2
      · rcases e2 with e2 | e2
        · intro h0; exact absurd e2 h0
        · intro _
          exact Nat.le_trans (one_more hd i4) (Nat.add_le_add_left (Nat.sub_le_sub_right e2 a) _)
    cases in_step wf hst with
    | keep hu hs _ _ hce hbc _ htx =>
      refine same ?_ hbc hce
      intro hn
      cases hst' : pre.state with
      | slave => exact slave_silent wf hst hst' hn
      | master =>
        obtain ⟨h1, h2, h3, h4⟩ := hn
        cases silent_tick wf hst ⟨h1, h2, hst'⟩ with
        | idle hi =>
          refine h3 ?_
          have hi : post = pre := hi
          rw [hi]
          simp [Entry.transmitted]
        | beat q hq ht => exact h4 ⟨h1, h2, q, by rw [hq]; exact List.mem_singleton_self _, ht⟩
        | change q hf => exact htx q (by rw [hf.sent]; exact List.mem_singleton_self _) (Or.inl hf.type)
        | repeats q hf =>
          refine htx q (by rw [hf.sent]; exact List.mem_singleton_self _) ?_
          have := hf.same.1
          simp only [Node.getSetEffect] at this
          unfold IsInstruction at hins ⊢
          rw [this]; exact hins
    | takeOver hu hs hs' hh _ _ hce hbc =>
      refine anew (slave_silent wf hst hs) (Or.inr ?_) ?_ ?_
      · rw [hbc, Node.add_toNat hw (by decide)]; rfl
      · rw [hce]; exact takeover_far hw _
      · rw [tally_pos (show Entry.Promoted ⟨pre, op, post⟩ from ⟨hs, hs'⟩)]; omega
    | locally p' hop hs _ _ hce hbc =>
      have hr : Requested ⟨pre, op, post⟩ := ⟨_, p', hop⟩
      refine anew ?_ (Or.inl hbc) (Or.inr ?_) ?_
      · rintro ⟨⟨_, _, ht⟩, _⟩
        simp only at ht
        rw [ht] at hop; cases hop
      · rw [hce]; exact local_far hw _
      · rw [tally_pos hr]; omega
    | slaveHeard p' hh _ hs hs' _ _ hce hbc => exact same (slave_silent wf hst hs) hbc hce
    | masterHeard p' hh hp hs hs' _ _ hce hbc =>
      have hr : MasterHearsWord ⟨pre, op, post⟩ := ⟨hs, p', hh, hp⟩
      refine anew ?_ (Or.inl hbc) ?_ ?_
      · rintro ⟨_, hn, _⟩
        rw [hh] at hn; cases hn
      · rw [hce]; exact deadline_far hw _
      · rw [tally_pos hr]; omega
    | change q hf hs hs' h0 h1 hce hbc =>
      have hn : post.timers.changeEffect.toNat = op.time.toNat + k := by
        rw [hce, Node.add_toNat hw (by decide)]; exact hk _
      obtain ⟨k1, k2⟩ := due_step (Nat.le_of_lt (BitVec.lt_def.1 h1)) (i5' h0) hn hat
      refine ⟨R, C + 1, ⟨?_, i2', by rw [hbc]; exact i3, ?_, fun _ => k2⟩⟩
      · by_cases hx : Announces ⟨pre, op, post⟩
        · rw [tally_pos hx]; exact Nat.succ_le_succ i1
        · rw [tally_neg hx]; exact Nat.le_succ_of_le i1
      · exact Nat.le_trans k1 (Nat.add_le_add_left (Nat.add_le_add_right hba _) _)
    | repeats q hf hq hs hs' h0 h1 hce hbc =>
      have hn : post.timers.broadcastEffect.toNat = op.time.toNat + g := by
        rw [hbc, Node.add_toNat hw (by decide)]; exact hg _
      obtain ⟨k1, k2⟩ := due_step (x := 0) (Nat.le_of_lt (BitVec.lt_def.1 h1))
        (by rw [Nat.zero_add]; exact i3 h0) hn hat
      rw [Nat.zero_add] at k1 k2
      refine ⟨R + 1, C, ⟨?_, Nat.le_trans k1 (Nat.add_le_add_right hba _), fun _ => k2, i4', by rw [hce]; exact i5'⟩⟩
      rw [Nat.add_right_comm]
      by_cases hx : Announces ⟨pre, op, post⟩
      · rw [tally_pos hx]; exact Nat.succ_le_succ i1
      · rw [tally_neg hx]; exact Nat.le_succ_of_le i1

theorem oldest {w : List Entry} {d : Nat}
    (span : ∀ e ∈ w, ∀ e' ∈ w, (Entry.time e).toNat ≤ (Entry.time e').toNat + d) :
    ∃ a, (∀ e ∈ w, a ≤ (Entry.time e).toNat) ∧ ∀ e ∈ w, (Entry.time e).toNat ≤ a + d := by
  cases w with
  | nil => exact ⟨0, fun _ k => absurd k List.not_mem_nil, fun _ k => absurd k List.not_mem_nil⟩
  | cons e w =>
    have : ∃ x ∈ e :: w, ∀ y ∈ e :: w, (Entry.time x).toNat ≤ (Entry.time y).toNat := by
      clear span
      induction w generalizing e with
      | nil => exact ⟨e, List.mem_singleton_self _, fun y hy => by rw [List.mem_singleton.1 hy]; exact Nat.le_refl _⟩
      | cons e' w ih =>
        obtain ⟨x, hx, hm⟩ := ih e'
        by_cases hle : (Entry.time e).toNat ≤ (Entry.time x).toNat
        · refine ⟨e, List.mem_cons_self, fun y hy => ?_⟩
          rcases List.mem_cons.1 hy with rfl | hy
          · exact Nat.le_refl _
          · exact Nat.le_trans hle (hm y hy)
        · refine ⟨x, List.mem_cons_of_mem _ hx, fun y hy => ?_⟩
          rcases List.mem_cons.1 hy with rfl | hy
          · omega
          · exact hm y hy
    obtain ⟨x, hx, hm⟩ := this
    exact ⟨_, hm, fun e he => span e he x hx⟩

/-- **C177.** In any steps `w` of a history, which take `d` ms in all, a device transmits at most: each new packet
that it hears once; a claim for each heartbeat that it hears as a master; each effect that its program requests;
heartbeats one per second and one more; repetitions one per two seconds and one more; choices of effect one per
minute and one more, and one for each instruction that it hears as a master or that its program gives and for
each time that it takes over. -/
theorem traffic_bound {plat t₀ w h s d} (r : Run plat t₀ (w ++ h) s) (c : Clock t₀ (w ++ h))
    (p : ProperUse (w ++ h))
    (span : ∀ e ∈ w, ∀ e' ∈ w, (Entry.time e).toNat ≤ (Entry.time e').toNat + d) :
    traffic w ≤ tally HearsNew w + tally MasterHears w + 2 * tally Requested w + tally Entry.Promoted w +
      (d / 1000 + 1) + (d / 2000 + 1) + (d / 60000 + 1) := by
  obtain ⟨a, ha, hb⟩ := oldest span
  have h1 := traffic_split r
  have h2 : tally Entry.OwnHeartbeat w ≤ d / 1000 + 1 := by
    refine count_div (by decide) ?_
    have := spaced_count (a := a) (b := a + d) (g := 1000)
      (List.pairwise_append.1 (Run.hbInv r c p).apart).1 (fun e he => ⟨ha e he, fun _ => hb e he⟩) (by omega)
    omega
  obtain ⟨R, C, i1, i2, _, i4, _⟩ := announced (fun _ => rfl) (fun _ => rfl) r c p ha (b := a + d)
    (Nat.le_add_right _ _) hb
  rw [Nat.add_sub_cancel_left] at i2 i4
  have h3 : R ≤ d / 2000 + 1 := count_div (by decide) i2
  have h4 : C - (tally MasterHearsWord w + tally Requested w + tally Entry.Promoted w) ≤ d / 60000 + 1 := by
    refine count_div (by decide) ?_
    rw [Nat.sub_mul]
    exact Nat.sub_le_iff_le_add'.2 i4
  have h5 := tally_hears w
  omega

/-- A device that is a slave has resigned since each time it took over. -/
theorem resigned_since {plat t₀} : ∀ {h s}, Run plat t₀ h s → Clock t₀ h → s.state = .slave →
    ∀ e ∈ h, Entry.Promoted e → ∃ e' ∈ h, Entry.Demoted e' ∧ (Entry.time e).toNat ≤ (Entry.time e').toNat
  | [], _, _, _, _, _, he, _ => absurd he List.not_mem_nil
  | x :: h, s, r, c, hs, e, he, hp => by
    obtain ⟨r', hst, hpost⟩ := r.cons_inv
    obtain ⟨c', _, _, hle⟩ := c.cons
    have hx : x.post.state = .slave := by rw [hpost]; exact hs
    cases hm : x.pre.state with
    | master =>
      refine ⟨x, List.mem_cons_self, ⟨hm, hx⟩, ?_⟩
      rcases List.mem_cons.1 he with rfl | he
      · exact Nat.le_refl _
      · exact hle e he
    | slave =>
      rcases List.mem_cons.1 he with rfl | he
      · have := hp.2
        simp only [Node.getCurrentState] at this
        rw [hx] at this; cases this
      · obtain ⟨e', h1, h2, h3⟩ := resigned_since r' c' hm e he hp
        exact ⟨e', List.mem_cons_of_mem _ h1, h2, h3⟩

/-- **C177.** A device takes over at most once in 5 s. -/
theorem promotions_apart {plat t₀} : ∀ {h s}, Run plat t₀ h s → Clock t₀ h → ProperUse h →
    h.Pairwise fun e e' => Entry.Promoted e → Entry.Promoted e' →
      (Entry.time e').toNat + 5000 < (Entry.time e).toNat
  | [], _, _, _, _ => List.Pairwise.nil
  | x :: h, s, r, c, p => by
    have r' := r.cons_inv.1
    refine List.pairwise_cons.2 ⟨fun e' he' hp hp' => ?_, promotions_apart r' c.cons.1 (ProperUse.cons p).1⟩
    obtain ⟨y, hy, hd, hle⟩ := resigned_since r' c.cons.1 hp.1 e' he' hp'
    have := no_takeover_before_silence r c p hp (Entry.time y) (Or.inr ⟨y, hy, rfl, Or.inr hd⟩)
    omega

/-- **C177.** A slave transmits nothing but the packets it hears, each once, and the requests of its program. -/
theorem slave_traffic {plat t₀ h} : ∀ {w s}, Run plat t₀ (w ++ h) s →
    (∀ e ∈ w, e.pre.getCurrentState = .slave ∧ e.post.getCurrentState = .slave) →
    traffic w = tally HearsNew w + tally Requested w
  | [], _, _, _ => rfl
  | ⟨pre, op, post⟩ :: w, s, r, hs => by
    obtain ⟨r', hst, _⟩ := Run.cons_inv (show Run plat t₀ (⟨pre, op, post⟩ :: (w ++ h)) s from r)
    simp only at r' hst
    have ih := slave_traffic r' fun e he => hs e (List.mem_cons_of_mem _ he)
    obtain ⟨hs1, hs2⟩ := hs _ List.mem_cons_self
    simp only [Node.getCurrentState] at hs1 hs2
    rw [traffic_cons, ih]
    by_cases ht : Entry.IsTick ⟨pre, op, post⟩
    · obtain ⟨now, rx, hop⟩ := ht
      simp only at hop
      subst hop
      have hq : ¬ Requested ⟨pre, .radioTick now rx, post⟩ := by
        rintro ⟨_, _, k⟩; cases k
      rw [tally_neg hq]
      cases hd : pre.delivered rx with
      | none =>
        have hh : ¬ HearsNew ⟨pre, .radioTick now rx, post⟩ := by
          rintro ⟨p, k⟩
          rw [heard_tick r'.wf, hd] at k; cases k
        rw [tally_neg hh]
        cases Node.radioTick_cases r'.wf hst with
        | slaveQuiet => simp [Entry.transmitted]
        | takeOver => cases hs2
        | _ => simp_all
      | some p =>
        have hh : HearsNew ⟨pre, .radioTick now rx, post⟩ := ⟨p, by rw [heard_tick r'.wf, hd]⟩
        rw [tally_pos hh]
        rcases (bounded_work r' hst).2.1 p (hears_of_delivered r'.wf hd) with b | ⟨_, _, _, _, hm, _⟩
        · rw [b, List.length_singleton]; omega
        · simp only [Node.getCurrentState] at hm
          rw [hs1] at hm; cases hm
    · by_cases hq : Requested ⟨pre, op, post⟩
      · have hk := request_sends r'.wf hst hq
        have hh : ¬ HearsNew ⟨pre, op, post⟩ := by
          rintro ⟨p, k⟩
          rw [hk.2.1] at k; cases k
        rw [hk.1, tally_pos hq, tally_neg hh]; omega
      · have hh : ¬ HearsNew ⟨pre, op, post⟩ := by
          rintro ⟨p, k⟩
          unfold Entry.heard at k
          split at k
          · exact ht ⟨_, _, by assumption⟩
          · cases k
        rw [silent_op hst ht hq, tally_neg hq, tally_neg hh, List.length_nil]; omega

/-- **C177.** So whatever a device hears or is asked, it transmits in `d` ms at most two packets for each new
packet that it hears and for each request, and of its own accord hardly more than 1.72 packets per second. -/
theorem traffic_rate {plat t₀ w h s d} (r : Run plat t₀ (w ++ h) s) (c : Clock t₀ (w ++ h))
    (p : ProperUse (w ++ h))
    (span : ∀ e ∈ w, ∀ e' ∈ w, (Entry.time e).toNat ≤ (Entry.time e').toNat + d) :
    traffic w ≤ 2 * tally HearsNew w + 2 * tally Requested w +
      (d / 1000 + d / 2000 + d / 5000 + d / 60000 + 4) := by
  have h1 := traffic_bound r c p span
  have h2 : tally MasterHears w ≤ tally HearsNew w :=
    tally_of_imp fun e _ he => by obtain ⟨_, q, hq, _⟩ := he; exact ⟨q, hq⟩
  have h3 : tally Entry.Promoted w ≤ d / 5000 + 1 := by
    refine count_div (by decide) ?_
    obtain ⟨a, ha, hb⟩ := oldest span
    have := spaced_count (a := a) (b := a + d) (g := 5000)
      (List.pairwise_append.1 (promotions_apart r c p)).1 (fun e he => ⟨ha e he, fun _ => hb e he⟩) (by omega)
    omega
  omega

theorem traffic_of_summaries {l} : ∀ {w : List Entry}, w.map summary = l →
    traffic w = (l.map fun x => x.sent.length).sum
  | w, e => by
    subst e
    simp [traffic, summary, List.map_map, Function.comp_def]

theorem hears_of_summaries : ∀ {w : List Entry} {l}, w.map summary = l →
    tally HearsNew w = l.countP fun x => x.heard.isSome
  | [], _, e => by subst e; rfl
  | x :: w, _, e => by
    subst e
    have ih := hears_of_summaries (w := w) rfl
    rw [List.map_cons]
    by_cases h : HearsNew x
    · rw [tally_pos h, List.countP_cons_of_pos, ih]
      obtain ⟨p, hp⟩ := h
      simp [summary, hp]
    · rw [tally_neg h, List.countP_cons_of_neg, ih]
      intro hs
      simp only [summary, Option.isSome_map] at hs
      obtain ⟨p, hp⟩ := Option.isSome_iff_exists.1 hs
      exact h ⟨p, hp⟩

/-- Six steps of a master, for the example. -/
def busySteps : List Summary :=
  [⟨10105, true, .master, .master, none, [.setEffect], true⟩,
    ⟨10104, true, .master, .master, some .heartbeat, [.heartbeat, .claimMaster], true⟩,
    ⟨10103, true, .master, .master, none, [.heartbeat], true⟩,
    ⟨9102, true, .master, .master, none, [.heartbeat], true⟩,
    ⟨8102, true, .master, .master, none, [.setEffect], true⟩,
    ⟨8101, true, .master, .master, none, [.heartbeat], true⟩]

/-- Such a history: the device takes over at 6000 ms, and then in 2004 ms transmits seven packets: three heartbeats
(8101, 9102, 10103 ms), the heartbeat of another device that it hears at 10104 ms together with a claim against it,
and the repetitions at 8102 and 10105 ms. -/
theorem traffic_demo : ∃ w h s, Run .arduino 0 (w ++ h) s ∧ Clock 0 (w ++ h) ∧ ProperUse (w ++ h) ∧
    (∀ e ∈ w, ∀ e' ∈ w, (Entry.time e).toNat ≤ (Entry.time e').toNat + 2004) ∧
    traffic w = 7 ∧ tally HearsNew w = 1 := by
  obtain ⟨h, s, r, e⟩ := run_of_summaries (plat := .arduino) (t₀ := 0) (rand := fun n => n + 40000)
    (ops := [.radioTick 6000 none, .radioTick 8101 none, .radioTick 8102 none, .radioTick 9102 none,
      .radioTick 10103 none, .radioTick 10104 (some ⟨1, .heartbeat, 4, Vector.replicate 58 0⟩),
      .radioTick 10105 none])
    (l := busySteps ++ [⟨6000, true, .slave, .master, none, [.heartbeat], true⟩]) (by decide +kernel)
  have c := clock_of_summaries (t₀ := 0) e (by decide +kernel)
  have p := proper_of_summaries e (by decide +kernel)
  have e1 : (h.take 6).map summary = busySteps := by rw [List.map_take, e]; rfl
  refine ⟨h.take 6, h.drop 6, s, by rw [List.take_append_drop]; exact r, by rw [List.take_append_drop]; exact c,
    by rw [List.take_append_drop]; exact p, ?_, by rw [traffic_of_summaries e1]; rfl,
    by rw [hears_of_summaries e1]; rfl⟩
  have hall : ∀ x ∈ h.take 6, 8101 ≤ (Entry.time x).toNat ∧ (Entry.time x).toNat ≤ 10105 := by
    intro x hx
    have : summary x ∈ (h.take 6).map summary := List.mem_map_of_mem hx
    rw [e1] at this
    have key : ∀ y ∈ busySteps, 8101 ≤ y.time.toNat ∧ y.time.toNat ≤ 10105 := by decide +kernel
    exact key _ this
  intro x hx y hy
  have := (hall x hx).2
  have := (hall y hy).1
  omega

end Firefly.Props
