import Verif.Lemmas.Instruction

/-! # The current instruction (C27, C28, C41) -/

namespace Firefly.Props
open Spec

theorem heard_setEffect {s s' : Node} {now p} : Entry.heard ⟨s, .setEffect now p, s'⟩ = none := rfl

/-- The effect of one step on the current instruction. -/
theorem instruction_step {plat} {op : Op} {s s' : Node} (wf : s.WF)
    (ht : op.step plat s = .ok s') :
    (∀ p, Instructs plat ⟨s, op, s'⟩ p → SameContent s'.getSetEffect p) ∧
    ((∀ p, ¬ Instructs plat ⟨s, op, s'⟩ p) → SameContent s'.getSetEffect s.getSetEffect) := by
  have st := in_step wf ht
  constructor
  · rintro p (⟨now, hop⟩ | ⟨hh, hp⟩ | hf)
    · simp only at hop
      cases st with
      | keep hu => exact absurd hop (hu.1 now p)
      | takeOver hu => exact absurd hop (hu.1 now p)
      | locally p' hop' _ hc => rw [hop] at hop'; cases hop'; exact hc
      | slaveHeard p' hh => subst hop; cases hh
      | masterHeard p' hh => subst hop; cases hh
      | change q hf => obtain ⟨_, _, h1⟩ := hf.tick; subst hop; cases h1
      | repeats q hf => obtain ⟨_, _, h1⟩ := hf.tick; subst hop; cases h1
    · cases st with
      | keep hu => exact absurd hp (hu.2 p hh)
      | takeOver hu => exact absurd hp (hu.2 p hh)
      | locally p' hop' _ hc => rw [hop'] at hh; cases hh
      | slaveHeard p' hh' _ _ _ hc => rw [hh] at hh'; cases hh'; rw [Node.getSetEffect, hc]; exact .refl
      | masterHeard p' hh' _ _ _ hc => rw [hh] at hh'; cases hh'; rw [Node.getSetEffect, hc]; exact .refl
      | change q hf => rw [hf.silent] at hh; cases hh
      | repeats q hf => rw [hf.silent] at hh; cases hh
    · exact hf.adopted
  · intro hn
    cases st with
    | keep hu _ hc => rw [Node.getSetEffect, hc]; exact .refl
    | takeOver hu _ _ _ hc => rw [Node.getSetEffect, hc]; exact .refl
    | locally p' hop' _ hc => exact absurd (Or.inl ⟨_, hop'⟩) (hn p')
    | slaveHeard p' hh hp => exact absurd (Or.inr (Or.inl ⟨hh, hp⟩)) (hn p')
    | masterHeard p' hh hp => exact absurd (Or.inr (Or.inl ⟨hh, hp⟩)) (hn p')
    | change q hf => exact absurd (Or.inr (Or.inr hf)) (hn q)
    | repeats q hf => exact hf.kept

/-- C27.  After any history the device's current instruction has the content of the most recent
instruction: a local `SetEffect`, a heard set-effect or control packet, or a choice of its own;
without any of these it is the boot default (effect 1, delay 0, palette 0). -/
theorem current_instruction {plat t₀ h s} (r : Run plat t₀ h s) :
    ((s.getSetEffect.type = .setEffect ∧ s.getSetEffect.len = 3 ∧ s.getSetEffect.data[0] = 1 ∧
        s.getSetEffect.data[1] = 0 ∧ s.getSetEffect.data[2] = 0) ∧
      ∀ e ∈ h, ∀ p, ¬ Instructs plat e p) ∨
    ∃ h₁ e h₂ p, h = h₁ ++ e :: h₂ ∧ Instructs plat e p ∧ SameContent s.getSetEffect p ∧
      ∀ e' ∈ h₁, ∀ p', ¬ Instructs plat e' p' := by
  obtain ⟨rand, j, j', x⟩ := r
  induction x with
  | nil =>
    left
    refine ⟨?_, by simp⟩
    simp [Node.init, Node.getSetEffect, Packet.writeSetEffect]
  | @cons h s op s' hx hst ih =>
    obtain ⟨h1, h2⟩ := instruction_step (hx.wf .init) hst
    by_cases hn : ∃ p, Instructs plat ⟨s, op, s'⟩ p
    · obtain ⟨p, hp⟩ := hn
      exact Or.inr ⟨[], _, h, p, rfl, hp, h1 p hp, by simp⟩
    · have hn' : ∀ p, ¬ Instructs plat ⟨s, op, s'⟩ p := fun p hp => hn ⟨p, hp⟩
      have hc := h2 hn'
      rcases ih with ⟨hb, hall⟩ | ⟨h₁, e, h₂, p, heq, hp, hsame, hlast⟩
      · left
        refine ⟨?_, fun e he => ?_⟩
        · obtain ⟨c1, c2, c3⟩ := hc
          simp only [c1, c2, c3]
          exact hb
        · rcases List.mem_cons.1 he with rfl | he
          · exact hn'
          · exact hall e he
      · right
        refine ⟨_ :: h₁, e, h₂, p, by rw [heq]; rfl, hp, hc.trans hsame, fun e' he' => ?_⟩
        rcases List.mem_cons.1 he' with rfl | he'
        · exact hn'
        · exact hlast e' he'

/-- The effect of one step on the current effect number. -/
theorem effect_index_step {plat} {op : Op} {s s' : Node} (wf : s.WF)
    (ht : op.step plat s = .ok s') :
    (∀ p, InstructsEffect plat ⟨s, op, s'⟩ p → s'.getEffectIndex = p.data[0]) ∧
    ((∀ p, ¬ InstructsEffect plat ⟨s, op, s'⟩ p) → s'.getEffectIndex = s.getEffectIndex) := by
  have st := in_step wf ht
  constructor
  · rintro p (⟨now, hop⟩ | ⟨hh, hp⟩ | hf)
    · simp only at hop
      cases st with
      | keep hu => exact absurd hop (hu.1 now p)
      | takeOver hu => exact absurd hop (hu.1 now p)
      | locally p' hop' _ _ hi => rw [hop] at hop'; cases hop'; exact hi
      | slaveHeard p' hh => subst hop; cases hh
      | masterHeard p' hh => subst hop; cases hh
      | change q hf => obtain ⟨_, _, h1⟩ := hf.tick; subst hop; cases h1
      | repeats q hf => obtain ⟨_, _, h1⟩ := hf.tick; subst hop; cases h1
    · cases st with
      | keep hu => exact absurd (Or.inl hp) (hu.2 p hh)
      | takeOver hu => exact absurd (Or.inl hp) (hu.2 p hh)
      | locally p' hop' _ hc => rw [hop'] at hh; cases hh
      | slaveHeard p' hh' _ _ _ _ hi =>
        rw [hh] at hh'; cases hh'; rw [Node.getEffectIndex, hi, if_pos hp]
      | masterHeard p' hh' _ _ _ _ hi =>
        rw [hh] at hh'; cases hh'; rw [Node.getEffectIndex, hi, if_pos hp]
      | change q hf => rw [hf.silent] at hh; cases hh
      | repeats q hf => rw [hf.silent] at hh; cases hh
    · exact hf.index
  · intro hn
    cases st with
    | keep hu _ _ hi => exact hi
    | takeOver hu _ _ _ _ hi => exact hi
    | locally p' hop' _ hc => exact absurd (Or.inl ⟨_, hop'⟩) (hn p')
    | slaveHeard p' hh hp _ _ _ hi =>
      rw [Node.getEffectIndex, hi, if_neg (fun h => hn p' (Or.inr (Or.inl ⟨hh, h⟩)))]; rfl
    | masterHeard p' hh hp _ _ _ hi =>
      rw [Node.getEffectIndex, hi, if_neg (fun h => hn p' (Or.inr (Or.inl ⟨hh, h⟩)))]; rfl
    | change q hf => exact absurd (Or.inr (Or.inr hf)) (hn q)
    | repeats q hf => exact hf.index

/-- C27.  The current effect number is the first byte of the most recent local `SetEffect`, heard
set-effect packet or own choice; 0 if there was none. -/
theorem current_effect_index {plat t₀ h s} (r : Run plat t₀ h s) :
    (s.getEffectIndex = 0 ∧ ∀ e ∈ h, ∀ p, ¬ InstructsEffect plat e p) ∨
    ∃ h₁ e h₂ p, h = h₁ ++ e :: h₂ ∧ InstructsEffect plat e p ∧ s.getEffectIndex = p.data[0] ∧
      ∀ e' ∈ h₁, ∀ p', ¬ InstructsEffect plat e' p' := by
  obtain ⟨rand, j, j', x⟩ := r
  induction x with
  | nil => exact Or.inl ⟨rfl, by simp⟩
  | @cons h s op s' hx hst ih =>
    obtain ⟨h1, h2⟩ := effect_index_step (hx.wf .init) hst
    by_cases hn : ∃ p, InstructsEffect plat ⟨s, op, s'⟩ p
    · obtain ⟨p, hp⟩ := hn
      exact Or.inr ⟨[], _, h, p, rfl, hp, h1 p hp, by simp⟩
    · have hn' : ∀ p, ¬ InstructsEffect plat ⟨s, op, s'⟩ p := fun p hp => hn ⟨p, hp⟩
      have hc := h2 hn'
      rcases ih with ⟨hb, hall⟩ | ⟨h₁, e, h₂, p, heq, hp, hsame, hlast⟩
      · left
        refine ⟨hc.trans hb, fun e he => ?_⟩
        rcases List.mem_cons.1 he with rfl | he
        · exact hn'
        · exact hall e he
      · right
        refine ⟨_ :: h₁, e, h₂, p, by rw [heq]; rfl, hp, hc.trans hsame, fun e' he' => ?_⟩
        rcases List.mem_cons.1 he' with rfl | he'
        · exact hn'
        · exact hlast e' he'

/-- C28.  If the device's instruction or effect number changes in a step in which it is not told
anything, it is a choice of its own (as a master, hearing nothing, with its announcement the
only transmission). -/
theorem own_change_is_fresh_choice {plat t₀ e h s} (r : Run plat t₀ (e :: h) s) (hu : Untold e)
    (hne : ¬ SameContent e.post.getSetEffect e.pre.getSetEffect ∨
      e.post.getEffectIndex ≠ e.pre.getEffectIndex) :
    ∃ q, FreshChoice plat e q := by
  obtain ⟨r', hst, _⟩ := r.cons_inv
  by_cases hf : ∃ q, FreshChoice plat e q
  · exact hf
  · exfalso
    rcases hne with hne | hne
    · refine hne ((instruction_step r'.wf hst).2 ?_)
      rintro p (⟨now, hop⟩ | ⟨hh, hp⟩ | hf')
      · exact hu.1 now p hop
      · exact hu.2 p hh hp
      · exact hf ⟨p, hf'⟩
    · refine hne ((effect_index_step r'.wf hst).2 ?_)
      rintro p (⟨now, hop⟩ | ⟨hh, hp⟩ | hf')
      · exact hu.1 now p hop
      · exact hu.2 p hh (Or.inl hp)
      · exact hf ⟨p, hf'⟩

/-- Numbers drawn by `random(0, n)` for a configured count `n ≥ 1` are below it. -/
theorem random_below {plat} {n : U8} {r r' : Rand} {v : U16} (hn : n ≠ 0)
    (h : randomRange plat 0 (n.setWidth 16) r = .ok (v, r')) :
    (v.setWidth 8).toNat < n.toNat ∧ (v.setWidth 8).toNat = v.toNat := by
  have hn0 : n.toNat ≠ 0 := fun h0 => hn (BitVec.eq_of_toNat_eq h0)
  have hlt := n.isLt
  have hw : (n.setWidth 16).toNat = n.toNat := by
    rw [BitVec.toNat_setWidth]; omega
  have key : v.toNat < n.toNat := by
    cases plat with
    | host =>
      simp only [randomRange] at h
      split at h
      · cases h
      · cases h
        rw [BitVec.toNat_ofNat, hw]
        have := Nat.mod_lt r.draw.1 (by omega : n.toNat > 0)
        have h0 : (0 : U16).toNat = 0 := rfl
        omega
    | arduino =>
      simp only [randomRange] at h
      split at h
      · cases h
        have h0 : (0 : U16).toNat = 0 := rfl
        omega
      · cases h
        have h0 : (0 : U16).toNat = 0 := rfl
        rw [BitVec.toNat_ofNat, hw, h0]
        have := Nat.mod_lt r.draw.1 (by omega : n.toNat - 0 > 0)
        omega
  rw [BitVec.toNat_setWidth]
  omega

/-- C28.  A device's own choice is below the configured numbers of effects and palettes. -/
theorem fresh_choice_in_range {plat e q} (hf : FreshChoice plat e q)
    (he : e.pre.numEffects ≠ 0) (hp : e.pre.numPalettes ≠ 0) :
    q.data[0].toNat < e.pre.numEffects.toNat ∧ q.data[2].toNat < e.pre.numPalettes.toNat := by
  obtain ⟨n, m, r, r', h1, h2, h3, h4⟩ := hf.drawn
  exact ⟨h3 ▸ (random_below he h1).1, h4 ▸ (random_below hp h2).1⟩

/-- The current instruction survives any execution without new instructions. -/
theorem instruction_persists {plat s h s'} (wf : s.WF) (x : Exec plat s h s')
    (hn : ∀ e ∈ h, ∀ p, ¬ Instructs plat e p) :
    SameContent s'.getSetEffect s.getSetEffect := by
  induction x with
  | nil => exact .refl
  | cons op hx hst ih =>
    exact ((instruction_step (hx.wf wf) hst).2 (hn _ List.mem_cons_self)).trans
      (ih fun e he => hn e (List.mem_cons_of_mem _ he))

/-- C41.  Any number of devices (indexed by `ι`), in any roles and with any histories: if every
one of them at some point either originates the instruction `p` (a local `SetEffect`, or its
own choice, transmitted as `p`) or hears it, and none gets another instruction afterwards, then
all hold the same instruction (type, length and payload), namely `p`. -/
theorem all_converge {ι : Type} (plat : ι → Platform) (t : ι → U32) (e : ι → Entry)
    (hist : ι → List Entry) (s : ι → Node) (h : ι → List Entry) (f : ι → Node) (p : Packet)
    (hr : ∀ j, Run (plat j) (t j) (e j :: hist j) (s j))
    (hin : ∀ j, (∃ q, Instructs (plat j) (e j) q ∧ SameContent q p))
    (x : ∀ j, Exec (plat j) (s j) (h j) (f j))
    (hn : ∀ j, ∀ e' ∈ h j, ∀ q, ¬ Instructs (plat j) e' q) :
    (∀ j, SameContent (f j).getSetEffect p) ∧
    ∀ j k, SameContent (f j).getSetEffect (f k).getSetEffect := by
  have key : ∀ j, SameContent (f j).getSetEffect p := by
    intro j
    obtain ⟨r', hst, heq⟩ := (hr j).cons_inv
    obtain ⟨q, hq, hqp⟩ := hin j
    have h1 := (instruction_step r'.wf hst).1 q hq
    have h2 := instruction_persists (hr j).wf (x j) (hn j)
    rw [← heq] at h2
    exact h2.trans (h1.trans hqp)
  exact ⟨key, fun j k => (key j).trans (key k).symm⟩

/-! ### Examples -/

namespace Demo

/-- What an instruction-related example looks at in a step. -/
structure InstrView where
  sum : Summary
  index : U8
  content : List U8
  effects : U8
  palettes : U8
  deriving DecidableEq

/-- The view of a step. -/
def instrView (e : Entry) : InstrView :=
  ⟨summary e, e.post.getEffectIndex, e.post.getSetEffect.data.toList.take 3, e.pre.numEffects,
    e.pre.numPalettes⟩

theorem run_of_views {plat t₀ rand ops l}
    (e : (bootRun plat t₀ rand ops).map (fun x => x.1.map instrView) = some l) :
    ∃ h s, Run plat t₀ h s ∧ h.map instrView = l := by
  cases hb : bootRun plat t₀ rand ops with
  | none => rw [hb] at e; cases e
  | some x =>
    rw [hb] at e
    obtain ⟨h, s⟩ := x
    exact ⟨h, s, bootRun_run hb, by simpa using e⟩

/-- A device with ten effects and palettes that hears effect 5 at 100 ms, takes over at
6000 ms, and changes the effect to 7 (palette 7) at 60102 ms, 60 s after it heard effect 5. -/
theorem rotation_run : ∃ h s, Run .arduino 0 h s ∧ h.map instrView =
    [⟨⟨60102, true, .master, .master, none, [.setEffect], true⟩, 7, [7, 0, 7], 10, 10⟩,
     ⟨⟨60101, true, .master, .master, none, [.heartbeat], true⟩, 5, [5, 0, 2], 10, 10⟩,
     ⟨⟨6000, true, .slave, .master, none, [.heartbeat], true⟩, 5, [5, 0, 2], 10, 10⟩,
     ⟨⟨100, true, .slave, .slave, some .setEffect, [.setEffect], true⟩, 5, [5, 0, 2], 10, 10⟩,
     ⟨⟨0, false, .slave, .slave, none, [], true⟩, 0, [1, 0, 0], 10, 1⟩,
     ⟨⟨0, false, .slave, .slave, none, [], true⟩, 0, [1, 0, 0], 1, 1⟩] := by
  apply run_of_views (rand := fun _ => 7)
    (ops := [.setNumEffects 0 10, .setNumPalettes 0 10,
      .radioTick 100 (some ⟨99, .setEffect, 3, (Vector.replicate 58 0).set 0 5 |>.set 2 2⟩),
      .radioTick 6000 none, .radioTick 60101 none, .radioTick 60102 none])
  decide +kernel

end Demo

/-- A device does choose effects of its own, in range: 7 of 10. -/
example : ∃ e h s, Run .arduino 0 (e :: h) s ∧ Untold e ∧ e.pre.numEffects = 10 ∧
    e.pre.numPalettes = 10 ∧ ∃ q, FreshChoice .arduino e q ∧ q.data[0] = 7 := by
  obtain ⟨h, s, r, e⟩ := Demo.rotation_run
  rcases h with _ | ⟨a, _ | ⟨b, l⟩⟩
  · cases e
  · simp at e
  simp only [List.map_cons, List.cons.injEq] at e
  obtain ⟨ea, eb, -⟩ := e
  have hpre : a.pre = b.post := (r.cons_inv.1.cons_inv.2.2).symm
  have hsum : summary a = _ := congrArg Demo.InstrView.sum ea
  have hheard : Entry.heard a = none := by
    have := congrArg Summary.heard hsum
    simpa [summary] using this
  have htick : (summary a).tick = true := by rw [hsum]
  have hu : Untold a := by
    refine ⟨fun now p hop => ?_, by simp [hheard]⟩
    simp [summary, hop] at htick
  have hi : a.post.getEffectIndex = 7 := congrArg Demo.InstrView.index ea
  have hi' : a.pre.getEffectIndex = 5 := by rw [hpre]; exact congrArg Demo.InstrView.index eb
  obtain ⟨q, hq⟩ := own_change_is_fresh_choice r hu (Or.inr (by rw [hi, hi']; decide))
  exact ⟨a, _, s, r, hu, congrArg Demo.InstrView.effects ea, congrArg Demo.InstrView.palettes ea,
    q, hq, by rw [← hq.index, hi]⟩

/-- A device just powered on. -/
def Demo.node : Node :=
  Node.init 0 (fun _ => 7) (.heartbeat, Vector.replicate 58 0) (.setControl, Vector.replicate 58 1)

/-- The hypotheses of C41 are met for any set-effect packet with a non-zero id: one device (index
`true`) is given it locally, another one, just powered on, hears it. -/
example (p : Packet) (hp : p.type = .setEffect) (hid : p.id ≠ 0) :
    ∃ (t : Bool → U32) (e : Bool → Entry) (hist : Bool → List Entry) (s : Bool → Node),
      (∀ j, Run .arduino (t j) (e j :: hist j) (s j)) ∧
      (∀ j, ∃ q, Instructs .arduino (e j) q ∧ SameContent q p) ∧
      Entry.heard (e false) = some p ∧ ∃ now, (e true).op = .setEffect now p := by
  have wf : Demo.node.WF := .init
  have h1 : Op.step .arduino (.setEffect 50 p) Demo.node =
      .ok (Node.afterSetEffect .arduino 50 p Demo.node) := by
    rw [Op.step, Node.setEffect_eq wf.idx, if_neg (by simp)]
  have hd : Demo.node.delivered (some p) = some p := by
    have : Demo.node.nm.cache.toList = [0, 0, 0, 0, 0] := by decide +kernel
    simp only [Node.delivered, this]
    rw [if_neg (by simpa using hid)]
  rcases Node.radioTick_result (plat := .arduino) (now := 70) (rx := some p) wf with
    ⟨s', h2, _⟩ | ⟨h, _⟩ | ⟨h, _⟩
  · refine ⟨fun _ => 0, fun j => if j then ⟨Demo.node, .setEffect 50 p, Node.afterSetEffect .arduino 50 p Demo.node⟩ else
      ⟨Demo.node, .radioTick 70 (some p), s'⟩, fun _ => [],
      fun j => if j then Node.afterSetEffect .arduino 50 p Demo.node else s',
      fun j => ?_, fun j => ⟨p, ?_, .refl⟩, ?_, ⟨50, rfl⟩⟩
    · cases j
      · exact ⟨_, _, _, .cons _ .nil h2⟩
      · exact ⟨_, _, _, .cons _ .nil h1⟩
    · cases j
      · exact Or.inr (Or.inl ⟨by simp [heard_tick wf, hd], Or.inl hp⟩)
      · exact Or.inl ⟨50, rfl⟩
    · simp [heard_tick wf, hd]
  · cases h
  · cases h

end Firefly.Props
