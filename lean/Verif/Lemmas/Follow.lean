import Verif.Props.Timeline
import Verif.Props.Repetition
import Verif.Props.Robust

/-! # How soon a master repeats its instruction, and who can have sent one -/

namespace Firefly.Props
open Spec

/-- A timer that is off, or runs until `τ` at least. -/
def OffUntil (τ : Nat) (d : U32) : Prop := d = 0 ∨ τ ≤ d.toNat

theorem OffUntil.not_due {τ : Nat} {d now : U32} (h : OffUntil τ d) (hn : now.toNat ≤ τ) :
    ¬ (d ≠ 0 ∧ d < now) := by
  rintro ⟨h1, h2⟩
  rcases h with h | h
  · exact h1 h
  · have := BitVec.lt_def.1 h2; omega

theorem delay_toNat {d : U8} (h : d ≠ 0) : 1000 ≤ (d.setWidth 32 * (1000 : U32)).toNat ∧
    (d.setWidth 32 * (1000 : U32)).toNat ≤ 255000 := by
  have h1 : d.toNat ≠ 0 := fun h0 => h (BitVec.eq_of_toNat_eq h0)
  have h2 := d.isLt
  rw [BitVec.toNat_mul, BitVec.toNat_setWidth, show (1000 : U32).toNat = 1000 from rfl,
    Nat.mod_eq_of_lt (show d.toNat < 2 ^ 32 by omega),
    Nat.mod_eq_of_lt (show d.toNat * 1000 < 2 ^ 32 by omega)]
  omega

theorem later_toNat {now d : U32} {τ : Nat} (hw : now.toNat + 255000 < 2 ^ 32) (h1 : 1000 ≤ d.toNat)
    (h2 : d.toNat ≤ 255000) (h : τ ≤ now.toNat) : τ + 1000 ≤ (now + d).toNat := by
  rw [Node.add_toNat hw h2]; omega

/-- Whatever a master does, its heartbeat timer stays as it is or runs for another second. -/
theorem master_beat_timer {plat op} {s s' : Node} (wf : s.WF) (h : Op.step plat op s = .ok s')
    (hs : s.state = .master) (hs' : s'.state = .master) :
    s'.timers.heartbeat = s.timers.heartbeat ∨ s'.timers.heartbeat = op.time + 1000 := by
  cases op with
  | radioTick now rx =>
    cases Node.radioTick_cases wf h <;>
      simp_all [Node.setTimer, Timers.set, Node.afterAccept]
    exact .inr rfl
  | setEffect now p =>
    simp only [Op.step, Node.setEffect_eq wf.idx] at h
    split at h
    · cases h
    · cases h; exact .inl rfl
  | setNumPalettes now n => cases h; exact .inl rfl
  | setNumEffects now n => cases h; exact .inl rfl
  | endTick now => cases h; exact .inl rfl

/-- And its rotation timer stays as it is, goes off, or runs for another second at least. -/
theorem master_change_timer {plat op} {s s' : Node} (wf : s.WF) (h : Op.step plat op s = .ok s')
    (hs : s.state = .master) (hw : op.time.toNat + 255000 < 2 ^ 32) {τ : Nat} (hτ : τ ≤ op.time.toNat) :
    s'.timers.changeEffect = s.timers.changeEffect ∨ OffUntil (τ + 1000) s'.timers.changeEffect := by
  cases in_step wf h with
  | keep _ _ _ _ hce => exact .inl hce
  | takeOver _ hs₂ => rw [hs] at hs₂; cases hs₂
  | locally p _ _ _ _ hce =>
    refine .inr (.inr ?_)
    rw [hce]
    split
    · exact later_toNat hw (by decide) (by decide) hτ
    · rename_i h0
      exact later_toNat hw (delay_toNat h0).1 (delay_toNat h0).2 hτ
  | slaveHeard p _ _ hs₂ => rw [hs] at hs₂; cases hs₂
  | masterHeard p _ _ _ _ _ _ hce =>
    right
    rw [hce]
    generalize (if p.type = .setEffect then p.data[1] else p.data[0]) = d
    unfold deadline
    split
    · exact .inl rfl
    · rename_i h0
      exact .inr (later_toNat hw (delay_toNat h0).1 (delay_toNat h0).2 hτ)
  | change q _ _ _ _ _ hce =>
    exact .inr (.inr (by rw [hce]; exact later_toNat hw (by decide) (by decide) hτ))
  | repeats q _ _ _ _ _ _ hce => exact .inl hce

/-- What a master's timers do over any number of steps in which it stays master and does not repeat its
instruction. -/
theorem master_timers {plat h} {s s' : Node} {τ : Nat} (wf : s.WF) (x : Exec plat s h s')
    (hall : ∀ e ∈ h, e.pre.state = .master ∧ e.post.state = .master ∧ (¬ ∃ q, Repeats e q) ∧
      (Entry.time e).toNat + 255000 < 2 ^ 32 ∧ τ ≤ (Entry.time e).toNat) :
    s'.timers.broadcastEffect = s.timers.broadcastEffect ∧
    (OffUntil (τ + 1000) s.timers.heartbeat → OffUntil (τ + 1000) s'.timers.heartbeat) ∧
    (OffUntil (τ + 1000) s.timers.changeEffect → OffUntil (τ + 1000) s'.timers.changeEffect) := by
  induction x with
  | nil => exact ⟨rfl, id, id⟩
  | @cons h b c op x hst ih =>
    obtain ⟨i1, i2, i3⟩ := ih fun e he => hall e (List.mem_cons_of_mem _ he)
    obtain ⟨h1, h2, h3, h4, h5⟩ := hall _ List.mem_cons_self
    simp only [Entry.time] at h1 h2 h4 h5
    have wf' := x.wf wf
    refine ⟨?_, fun h => ?_, fun h => ?_⟩
    · have := timer_step (t := .broadcastEffect) wf' hst (by
        rintro (⟨h, _⟩ | h)
        · have h : b.state = .slave := h
          rw [h1] at h; cases h
        · exact h3 h)
      simp only [Timers.get] at this
      rw [this, i1]
    · rcases master_beat_timer wf' hst h1 h2 with h' | h'
      · rw [h']; exact i2 h
      · rw [h']; exact .inr (later_toNat h4 (by decide) (by decide) h5)
    · rcases master_change_timer wf' hst h1 h4 h5 with h' | h'
      · rw [h']; exact i3 h
      · exact h'

/-- In three quiet iterations within a second, with anything in between, a master repeats its
instruction if that was due in the first. -/
theorem repeats_of_three {plat} {a₁ a₂ a₃ : Entry} {h₁ h₂ : List Entry}
    (wf₁ : a₁.pre.WF) (st₁ : Op.step plat a₁.op a₁.pre = .ok a₁.post)
    (x₁ : Exec plat a₁.post h₁ a₂.pre) (st₂ : Op.step plat a₂.op a₂.pre = .ok a₂.post)
    (x₂ : Exec plat a₂.post h₂ a₃.pre) (st₃ : Op.step plat a₃.op a₃.pre = .ok a₃.post)
    (hq : ∀ e ∈ [a₁, a₂, a₃], Entry.IsTick e ∧ Entry.heard e = none)
    (hall : ∀ e ∈ a₁ :: a₂ :: a₃ :: (h₁ ++ h₂), e.pre.state = .master ∧ e.post.state = .master ∧
      (Entry.time e).toNat + 255000 < 2 ^ 32 ∧ (Entry.time a₁).toNat ≤ (Entry.time e).toNat)
    (ho : ∀ e ∈ [a₂, a₃], (Entry.time e).toNat ≤ (Entry.time a₁).toNat + 1000)
    (hdue : a₁.pre.timers.broadcastEffect ≠ 0 ∧ a₁.pre.timers.broadcastEffect < Entry.time a₁) :
    ∃ e ∈ a₁ :: a₂ :: a₃ :: (h₁ ++ h₂), ∃ q, Repeats e q := by
  refine Classical.byContradiction fun hno => ?_
  have hno : ∀ e ∈ a₁ :: a₂ :: a₃ :: (h₁ ++ h₂), ¬ ∃ q, Repeats e q :=
    fun e he hr => hno ⟨e, he, hr⟩
  have wf₁' := Node.step_wf wf₁ st₁
  have wf₂ := x₁.wf wf₁'
  have wf₂' := Node.step_wf wf₂ st₂
  have wf₃ := x₂.wf wf₂'
  have m₁ := hall a₁ (by simp)
  have m₂ := hall a₂ (by simp)
  have m₃ := hall a₃ (by simp)
  have q₁ := hq a₁ (by simp)
  have q₂ := hq a₂ (by simp)
  have q₃ := hq a₃ (by simp)
  have s₁ : SilentStep plat (Entry.time a₁) a₁ := silent_tick wf₁ st₁ ⟨q₁.1, q₁.2, m₁.1⟩
  have s₂ : SilentStep plat (Entry.time a₂) a₂ := silent_tick wf₂ st₂ ⟨q₂.1, q₂.2, m₂.1⟩
  have s₃ : SilentStep plat (Entry.time a₃) a₃ := silent_tick wf₃ st₃ ⟨q₃.1, q₃.2, m₃.1⟩
  have t₁ := master_timers (τ := (Entry.time a₁).toNat) wf₁' x₁ fun e he => by
    have hm : e ∈ a₁ :: a₂ :: a₃ :: (h₁ ++ h₂) := by simp [he]
    obtain ⟨h1, h2, h3, h4⟩ := hall e hm
    exact ⟨h1, h2, hno e hm, h3, h4⟩
  have t₂ := master_timers (τ := (Entry.time a₁).toNat) wf₂' x₂ fun e he => by
    have hm : e ∈ a₁ :: a₂ :: a₃ :: (h₁ ++ h₂) := by simp [he]
    obtain ⟨h1, h2, h3, h4⟩ := hall e hm
    exact ⟨h1, h2, hno e hm, h3, h4⟩
  have o₂ := ho a₂ (by simp)
  have o₃ := ho a₃ (by simp)
  -- the repetition stays due
  have due₂ : a₁.post.timers.broadcastEffect = a₁.pre.timers.broadcastEffect →
      ¬ (a₂.pre.timers.broadcastEffect = 0 ∨ ¬ a₂.pre.timers.broadcastEffect < Entry.time a₂) := by
    intro h
    rw [t₁.1, h]
    rintro (h0 | h0)
    · exact hdue.1 h0
    · exact h0 (BitVec.lt_def.2 (by have := BitVec.lt_def.1 hdue.2; have := m₂.2.2.2; omega))
  have due₃ : a₁.post.timers.broadcastEffect = a₁.pre.timers.broadcastEffect →
      a₂.post.timers.broadcastEffect = a₂.pre.timers.broadcastEffect →
      ¬ (a₃.pre.timers.broadcastEffect = 0 ∨ ¬ a₃.pre.timers.broadcastEffect < Entry.time a₃) := by
    intro h h'
    rw [t₂.1, h', t₁.1, h]
    rintro (h0 | h0)
    · exact hdue.1 h0
    · exact h0 (BitVec.lt_def.2 (by have := BitVec.lt_def.1 hdue.2; have := m₃.2.2.2; omega))
  have second : ∀ {t : U32}, (Entry.time a₁).toNat ≤ t.toNat → t.toNat + 255000 < 2 ^ 32 →
      OffUntil ((Entry.time a₁).toNat + 1000) (t + 1000) :=
    fun h h' => .inr (later_toNat h' (by decide) (by decide) h)
  have minute : ∀ {t : U32}, (Entry.time a₁).toNat ≤ t.toNat → t.toNat + 255000 < 2 ^ 32 →
      OffUntil ((Entry.time a₁).toNat + 1000) (t + 60000) :=
    fun h h' => .inr (later_toNat h' (by decide) (by decide) h)
  have off₁ := second (t := Entry.time a₁) (Nat.le_refl _) m₁.2.2.1
  have off₁' := minute (t := Entry.time a₁) (Nat.le_refl _) m₁.2.2.1
  have off₂ := second (t := Entry.time a₂) m₂.2.2.2 m₂.2.2.1
  have off₂' := minute (t := Entry.time a₂) m₂.2.2.2 m₂.2.2.1
  cases s₁ with
  | idle _ _ _ h3 =>
    rcases h3 with h | h
    · exact hdue.1 h
    · exact h hdue.2
  | repeats q hf => exact hno a₁ (by simp) ⟨q, hf⟩
  | beat q _ _ hhb hce hbc =>
    rw [← hhb] at off₁
    have b₂ := t₁.2.1 off₁
    cases s₂ with
    | idle _ _ _ h3 => exact due₂ hbc h3
    | repeats q hf => exact hno a₂ (by simp) ⟨q, hf⟩
    | beat q _ _ _ _ _ hd => exact b₂.not_due o₂ hd
    | change q _ hhb' hce' hbc' =>
      rw [← hce'] at off₂'
      rw [← hhb'] at b₂
      have b₃ := t₂.2.1 b₂
      have c₃ := t₂.2.2 off₂'
      cases s₃ with
      | idle _ _ _ h3 => exact due₃ hbc hbc' h3
      | repeats q hf => exact hno a₃ (by simp) ⟨q, hf⟩
      | beat q _ _ _ _ _ hd => exact b₃.not_due o₃ hd
      | change q _ _ _ _ _ hd => exact c₃.not_due o₃ hd
  | change q _ hhb hce hbc =>
    rw [← hce] at off₁'
    have c₂ := t₁.2.2 off₁'
    cases s₂ with
    | idle _ _ _ h3 => exact due₂ hbc h3
    | repeats q hf => exact hno a₂ (by simp) ⟨q, hf⟩
    | change q _ _ _ _ _ hd => exact c₂.not_due o₂ hd
    | beat q _ _ hhb' hce' hbc' =>
      rw [← hhb'] at off₂
      rw [← hce'] at c₂
      have b₃ := t₂.2.1 off₂
      have c₃ := t₂.2.2 c₂
      cases s₃ with
      | idle _ _ _ h3 => exact due₃ hbc hbc' h3
      | repeats q hf => exact hno a₃ (by simp) ⟨q, hf⟩
      | beat q _ _ _ _ _ hd => exact b₃.not_due o₃ hd
      | change q _ _ _ _ _ hd => exact c₃.not_due o₃ hd

theorem clock_ordered {t₀} {h₁ h₂ : List Entry} {a : Entry} (c : Clock t₀ (h₁ ++ a :: h₂)) :
    (∀ e ∈ h₁, (Entry.time a).toNat ≤ (Entry.time e).toNat) ∧
    (∀ e ∈ h₂, (Entry.time e).toNat ≤ (Entry.time a).toNat) ∧ Clock t₀ (a :: h₂) := by
  induction h₁ with
  | nil => exact ⟨by simp, c.cons.2.2.2, c⟩
  | cons y h₁ ih =>
    obtain ⟨c', _, _, hle⟩ := c.cons
    obtain ⟨i1, i2, i3⟩ := ih c'
    refine ⟨fun e he => ?_, i2, i3⟩
    rcases List.mem_cons.1 he with rfl | he
    · exact hle a (by simp)
    · exact i1 e he

namespace Timeline

variable {n : Nat} {nbrs : Fin n → List (Fin n)} {on : Fin n → Nat} {boot : Fin n → U32}
  {net₀ : HwNet n} {net : Nat → HwNet n} {T : Nat → Nat} {N : Nat}

/-- After any time `y` an attentive master repeats its instruction within `2003 + 3 D` ms. -/
theorem next_repeat {m : Fin n} {D : Nat} (t : Timeline nbrs on boot net₀ net T N)
    (hp : ∀ e ∈ net₀.hist m, wall on m e ≤ T 0) (at_ : Attentive m on net₀ net T N D)
    (hD : 2 * D ≤ 998) {k : Nat} (hk : k ≤ N) (st : Settled nbrs net₀ m (net k)) {y : Nat}
    (hy : T 0 ≤ y) (hT : y + (2003 + 3 * D) < T k) :
    ∃ e ∈ since net₀ (net k) m, (∃ q, Repeats e q) ∧ y < wall on m e ∧
      wall on m e ≤ y + (2003 + 3 * D) := by
  refine Classical.byContradiction fun hno => ?_
  obtain ⟨a₁, m₁, k₁, n₁, l₁, u₁⟩ := at_ k hk (y + 2001) (by omega) (by omega)
  obtain ⟨a₂, m₂, k₂, n₂, l₂, u₂⟩ := at_ k hk (wall on m a₁ + 1) (by omega) (by omega)
  obtain ⟨a₃, m₃, k₃, n₃, l₃, u₃⟩ := at_ k hk (wall on m a₂ + 1) (by omega) (by omega)
  have hno : ∀ e ∈ since net₀ (net k) m, y < wall on m e → wall on m e ≤ y + (2003 + 3 * D) →
      ¬ ∃ q, Repeats e q := fun e h1 h2 h3 h4 => hno ⟨e, h1, h4, h2, h3⟩
  -- cut the history at the three iterations
  have c := clocks t hk m
  have hh := hist t hk m
  have r := run_at t hk m
  obtain ⟨g₃, r₃, s₃⟩ := List.append_of_mem m₃
  have c₃ : Clock (boot m) (g₃ ++ a₃ :: (r₃ ++ net₀.hist m)) := by
    rw [hh, s₃, List.append_assoc, List.cons_append] at c; exact c
  have o₃ := clock_ordered c₃
  have m₂' : a₂ ∈ r₃ := by
    rw [s₃] at m₂
    rcases List.mem_append.1 m₂ with h | h
    · have := o₃.1 _ h; unfold wall at *; omega
    · rcases List.mem_cons.1 h with rfl | h
      · omega
      · exact h
  obtain ⟨g₂, r₂, s₂⟩ := List.append_of_mem m₂'
  have c₂ : Clock (boot m) (g₂ ++ a₂ :: (r₂ ++ net₀.hist m)) := by
    have := o₃.2.2.cons.1; rw [s₂, List.append_assoc, List.cons_append] at this; exact this
  have o₂ := clock_ordered c₂
  have m₁' : a₁ ∈ r₂ := by
    rw [s₃, s₂] at m₁
    rcases List.mem_append.1 m₁ with h | h
    · have := o₃.1 _ h; unfold wall at *; omega
    · rcases List.mem_cons.1 h with rfl | h
      · omega
      · rcases List.mem_append.1 h with h | h
        · have := o₂.1 _ h; unfold wall at *; omega
        · rcases List.mem_cons.1 h with rfl | h
          · omega
          · exact h
  obtain ⟨g₁, r₁, s₁⟩ := List.append_of_mem m₁'
  have c₁ : Clock (boot m) (g₁ ++ a₁ :: (r₁ ++ net₀.hist m)) := by
    have := o₂.2.2.cons.1; rw [s₁, List.append_assoc, List.cons_append] at this; exact this
  have o₁ := clock_ordered c₁
  rw [hh, s₃, s₂, s₁] at r
  simp only [List.append_assoc, List.cons_append] at r
  obtain ⟨ra, ju, ju', x⟩ := r
  obtain ⟨x, st₃, -⟩ := exec_split x
  obtain ⟨x, st₂, x₂⟩ := exec_split x
  obtain ⟨x, st₁, x₁⟩ := exec_split x
  have wf₁ := x.wf .init
  -- all of it lies in the history
  have hsub : ∀ e ∈ a₁ :: a₂ :: a₃ :: (g₁ ++ g₂), e ∈ since net₀ (net k) m := by
    intro e he
    rw [s₃, s₂, s₁]
    simp only [List.mem_cons, List.mem_append] at he ⊢
    grind
  have hmaster : ∀ e ∈ since net₀ (net k) m, e.pre.state = .master ∧ e.post.state = .master := by
    intro e he
    have := st.roles m e he
    rwa [roleIn, if_pos rfl] at this
  have hw : ∀ e ∈ since net₀ (net k) m, (Entry.time e).toNat + 255000 < 2 ^ 32 := by
    intro e he
    refine c.2 _ (List.mem_append_left _ (List.mem_map_of_mem ?_))
    rw [hh]; exact List.mem_append_left _ he
  have hbetween : ∀ e ∈ a₁ :: a₂ :: a₃ :: (g₁ ++ g₂),
      (Entry.time a₁).toNat ≤ (Entry.time e).toNat ∧ (Entry.time e).toNat ≤ (Entry.time a₃).toNat := by
    have o31 := o₃.2.1
    have o21 := o₂.2.1
    intro e he
    have h13 := o31 a₁ (by rw [s₂]; simp [m₁'])
    have h23 := o31 a₂ (by simp [m₂'])
    have h12 := o21 a₁ (by simp [m₁'])
    rcases List.mem_cons.1 he with rfl | he
    · omega
    rcases List.mem_cons.1 he with rfl | he
    · omega
    rcases List.mem_cons.1 he with rfl | he
    · omega
    rcases List.mem_append.1 he with he | he
    · exact ⟨o₁.1 e he, o31 e (by rw [s₂, s₁]; simp [he])⟩
    · have := o₂.1 e he
      exact ⟨by omega, o31 e (by rw [s₂]; simp [he])⟩
  -- the repetition was due
  have hdue : a₁.pre.timers.broadcastEffect ≠ 0 ∧
      a₁.pre.timers.broadcastEffect < Entry.time a₁ := by
    have hpu : ProperUse (r₁ ++ net₀.hist m) := by
      intro e he now p ho
      refine (hwInv_reach (reach_at t hk)).proper m e ?_ now p ho
      show e ∈ (net k).hist m
      rw [hh, s₃, s₂, s₁]
      simp only [List.mem_append, List.mem_cons] at he ⊢
      grind
    obtain ⟨e, he, hm, heq⟩ := (bc_inv ⟨ra, ju, ju', x⟩ o₁.2.2.cons.1 hpu).master
      (hmaster a₁ (hsub a₁ (by simp))).1
    have hle : wall on m e ≤ y := by
      rcases List.mem_append.1 he with he' | he'
      · have hin : e ∈ since net₀ (net k) m := by
          rw [s₃, s₂, s₁]; simp [he']
        refine Classical.byContradiction fun hlt => ?_
        rcases hm with hm | hm
        · have := (hmaster e hin).1
          have hm1 : e.pre.state = .slave := hm.1
          rw [hm1] at this; cases this
        · refine hno e hin (by omega) ?_ hm
          have := o₁.2.1 e he
          unfold wall at *; omega
      · have := hp e he'; omega
    refine ⟨fun h0 => ?_, BitVec.lt_def.2 ?_⟩
    · rw [h0] at heq; simp at heq
    · unfold wall at *; omega
  obtain ⟨e, he, hr⟩ := repeats_of_three wf₁ st₁ x₁ st₂ x₂ st₃
    (by
      intro e he
      simp only [List.mem_cons, List.not_mem_nil, or_false] at he
      rcases he with rfl | rfl | rfl
      · exact ⟨k₁, n₁⟩
      · exact ⟨k₂, n₂⟩
      · exact ⟨k₃, n₃⟩)
    (fun e he => ⟨(hmaster e (hsub e he)).1, (hmaster e (hsub e he)).2, hw e (hsub e he),
      (hbetween e he).1⟩)
    (by
      intro e he
      simp only [List.mem_cons, List.not_mem_nil, or_false] at he
      rcases he with rfl | rfl <;> (unfold wall at *; omega)) hdue
  have hb := hbetween e he
  exact hno e (hsub e he) (by unfold wall at *; omega) (by unfold wall at *; omega) hr

/-- So in `K` times that period there are `K` repetitions. -/
theorem repeats {m : Fin n} {D : Nat} (t : Timeline nbrs on boot net₀ net T N)
    (hp : ∀ e ∈ net₀.hist m, wall on m e ≤ T 0) (at_ : Attentive m on net₀ net T N D)
    (hD : 2 * D ≤ 998) {k : Nat} (hk : k ≤ N) (st : Settled nbrs net₀ m (net k)) (K : Nat) {y : Nat}
    (hy : T 0 ≤ y) (hT : y + K * (2003 + 3 * D) < T k) :
    ∃ bs : List Entry, bs.length = K ∧ (bs.Pairwise fun a b => wall on m a < wall on m b) ∧
      ∀ b ∈ bs, b ∈ since net₀ (net k) m ∧ (∃ q, Repeats b q) ∧ y < wall on m b ∧
        wall on m b ≤ y + K * (2003 + 3 * D) := by
  induction K generalizing y with
  | zero => exact ⟨[], rfl, .nil, by simp⟩
  | succ K ih =>
    rw [Nat.succ_mul] at hT ⊢
    obtain ⟨e, he, hr, h1, h2⟩ := next_repeat t hp at_ hD hk st hy (by omega)
    obtain ⟨bs, hl, hpw, hb⟩ := ih (y := wall on m e) (by omega) (by omega)
    refine ⟨e :: bs, by simp [hl], List.pairwise_cons.2 ⟨fun b hbm => (hb b hbm).2.2.1, hpw⟩, ?_⟩
    intro b hbm
    rcases List.mem_cons.1 hbm with rfl | hbm
    · exact ⟨he, hr, h1, by omega⟩
    · obtain ⟨b1, b2, b3, b4⟩ := hb b hbm
      exact ⟨b1, b2, by omega, by omega⟩

end Timeline

/-- Who sent an instruction that arrives in a settled network. -/
theorem settled_sender {n nbrs} {net₀ net : HwNet n} {m : Fin n}
    (hr0 : HwNet.Reach nbrs { net with air := net.air ++ net₀.air }) (st : Settled nbrs net₀ m net)
    {j f} {e' : Entry} (he' : e' ∈ since net₀ net j) {q} (hq : q ∈ Entry.transmitted e')
    (hsend : Hw.sendPacket q = .ok f) {p} (hd : Decodes f p) (hpi : IsInstruction p) :
    Carries p e'.post.getSetEffect ∧ (j = m ∨ ∃ now q, e'.op = .setEffect now q) := by
  have inv := hwInv_reach hr0
  obtain ⟨h3, -, hc⟩ := decodes_sent hsend hd
  have hinj : e' ∈ net.hist j := by rw [st.hist j]; exact List.mem_append_left _ he'
  obtain ⟨t₁, rand₁, ju₁, ju₁', x⟩ := inv.exec j
  obtain ⟨g, x', wf', hst', hsub⟩ := exec_entry x .init hinj
  have hqi : IsInstruction q := by
    unfold IsInstruction at hpi ⊢; rw [← hc.1]; exact hpi
  have hstate := (st.roles j e' he').1
  have hjm : e'.pre.state = .master → j = m := by
    intro h
    rw [h, roleIn] at hstate
    split at hstate
    · assumption
    · cases hstate
  have carry : ∀ c : Packet, SameContent c q → Carries p c := by
    intro c hcq
    exact ⟨hc.1.trans hcq.1.symm, fun k hk hl => by
      rw [hc.2 k hk (hcq.2.1 ▸ hl), hcq.2.2]⟩
  cases in_step wf' hst' with
  | keep _ _ _ _ _ _ _ htx => exact absurd hqi (htx q hq)
  | takeOver _ _ _ _ _ _ _ _ _ htx => exact absurd hqi (htx q hq)
  | locally p' hop _ _ _ _ _ _ htx =>
    have hq' : q ∈ [e'.post.setEffectPacket] := htx ▸ hq
    rw [List.mem_singleton.1 hq'] at carry
    exact ⟨carry _ .refl, .inr ⟨_, _, hop⟩⟩
  | slaveHeard p' hh' =>
    have := heard_transmits_empty wf' hst' hh' (inv.deaf j e' hinj p' hh') hq
    rw [this] at h3; exact absurd h3 (by decide)
  | masterHeard p' hh' =>
    have := heard_transmits_empty wf' hst' hh' (inv.deaf j e' hinj p' hh') hq
    rw [this] at h3; exact absurd h3 (by decide)
  | change r hf' hms =>
    have hq' : q ∈ [r] := hf'.sent ▸ hq
    rw [List.mem_singleton.1 hq'] at carry
    exact ⟨carry _ hf'.adopted, .inl (hjm hms)⟩
  | repeats r hf' hr' hms =>
    have hq' : q ∈ [r] := hf'.sent ▸ hq
    rw [List.mem_singleton.1 hq'] at carry
    exact ⟨carry _ (hf'.kept.trans ⟨hf'.same.1.symm, hf'.same.2.1.symm, hf'.same.2.2.symm⟩),
      .inl (hjm hms)⟩

end Firefly.Props
