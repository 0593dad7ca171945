import Verif.Spec.Unbroken
import Verif.Props.Show
import Verif.Props.ControllerNode
import Verif.Props.KeypadNode

/-! # An installation does not bring itself down (C181) -/

namespace Firefly
open Spec

/-- An effect packet is bare, or complete and names a palette that exists. -/
def Packet.Unbroken (p : Packet) : Prop :=
  p.type = .setEffect → p.data[2].toNat < 22 ∧ (p.len = 0 ∨ 3 ≤ p.len.toNat)

structure Node.Unbroken (s : Node) : Prop where
  wf : s.WF
  now : s.setEffectPacket.Unbroken
  effects : s.numEffects ≠ 0
  palettes : s.numPalettes ≠ 0 ∧ s.numPalettes.toNat ≤ 22

theorem Node.Unbroken.init {t₀ rand j j'} : (Node.init t₀ rand j j').Unbroken := by
  refine ⟨⟨by show (0 : U8).toNat < 5; decide, rfl, rfl⟩, fun _ => ⟨by simp [Node.init, Packet.writeSetEffect], .inr ?_⟩,
    by show (1 : U8) ≠ 0; decide, by show (1 : U8) ≠ 0; decide, by show (1 : U8).toNat ≤ 22; decide⟩
  show 3 ≤ (3 : U8).toNat; decide

theorem Packet.Unbroken.same {p q : Packet} (h : SameContent p q) (k : q.Unbroken) : p.Unbroken := by
  obtain ⟨h1, h2, h3⟩ := h
  unfold Packet.Unbroken
  rw [h1, h2, h3]; exact k

theorem Packet.Unbroken.frame {q : Packet} (k : q.type = .setEffect → q.len = 0 ∨ 3 ≤ q.len.toNat ∧ q.data[2].toNat < 22)
    {f} (h : Hw.sendPacket q = .ok f) : Harmless f := by
  unfold Hw.sendPacket at h
  split at h
  · cases h
  · rename_i hl
    cases h
    have hl : q.len.toNat ≤ 58 := by omega
    refine ⟨?_, fun h2 h4 => ?_⟩
    · simp only [List.length_append, List.length_cons, List.length_nil, List.length_take, Vector.length_toList]
      omega
    · have ht : q.type = .setEffect := by
        simp at h2
        revert h2
        cases q.type with
        | other n hn => intro h2; simp only [Hw.byteOfType] at h2; subst h2; exact absurd hn (by decide)
        | _ => simp [Hw.byteOfType]
      have h5 : q.len ≠ 0 := by
        intro h0
        rw [h0] at h4
        simp at h4
      rcases k ht with k | ⟨k, k'⟩
      · exact absurd k h5
      · refine ⟨_, ?_, k'⟩
        simp only [List.cons_append, List.nil_append, List.getElem?_cons_succ]
        rw [List.getElem?_take_of_lt (by omega)]
        simp

theorem Node.Unbroken.step {s s' : Node} (g : s.Unbroken) {op} (ho : SoundCall ⟨s, op, s'⟩)
    (hrx : ∀ p, Entry.heard ⟨s, op, s'⟩ = some p → p.len = 0 ∧ (p.type = .setEffect → p.data[2].toNat < 22))
    (h : Op.step .arduino op s = .ok s') :
    s'.Unbroken ∧ ∀ q ∈ Entry.transmitted ⟨s, op, s'⟩,
      q.type = .setEffect → q.len = 0 ∨ 3 ≤ q.len.toNat ∧ q.data[2].toNat < 22 := by
  have wf' := Node.step_wf g.wf h
  have hc : s'.numEffects ≠ 0 ∧ s'.numPalettes ≠ 0 ∧ s'.numPalettes.toNat ≤ 22 := by
    cases op with
    | radioTick now rx =>
      have := Node.step_counts g.wf h
      rw [this.1, this.2]
      exact ⟨g.effects, g.palettes⟩
    | setEffect now p =>
      simp only [Op.step] at h
      rw [Node.setEffect_eq g.wf.idx] at h
      split at h
      · cases h
      · cases h; exact ⟨g.effects, g.palettes⟩
    | setNumPalettes now k => cases h; exact ⟨g.effects, ho.2.1 now k rfl⟩
    | setNumEffects now k => cases h; exact ⟨ho.1 now k rfl, g.palettes⟩
    | endTick now => cases h; exact ⟨g.effects, g.palettes⟩
  cases in_step g.wf h with
  | keep _ _ hc' _ _ _ _ htx =>
    exact ⟨⟨wf', by rw [hc']; exact g.now, hc.1, hc.2⟩, fun q hq ht => absurd (.inl ht) (htx q hq)⟩
  | takeOver _ _ _ _ hc' _ _ _ _ htx =>
    exact ⟨⟨wf', by rw [hc']; exact g.now, hc.1, hc.2⟩, fun q hq ht => absurd (.inl ht) (htx q hq)⟩
  | locally p hop _ hc' _ _ _ _ htx =>
    have k := ho.2.2 _ p hop
    have k' : s'.setEffectPacket.Unbroken :=
      Packet.Unbroken.same hc' fun ht => ⟨(k ht).2.elim id fun h => by rw [h.2]; exact (g.now h.1).1, .inr (k ht).1⟩
    refine ⟨⟨wf', k', hc.1, hc.2⟩, fun q hq ht => ?_⟩
    rw [htx] at hq
    rcases List.mem_singleton.1 hq with rfl
    exact (k' ht).2.imp id fun h => ⟨h, (k' ht).1⟩
  | slaveHeard p hh _ _ _ hc' _ _ _ _ htx =>
    have k := hrx p hh
    refine ⟨⟨wf', by rw [hc']; exact fun ht => ⟨k.2 ht, .inl k.1⟩, hc.1, hc.2⟩, fun q hq ht => ?_⟩
    rw [htx] at hq
    rcases List.mem_singleton.1 hq with rfl
    exact .inl k.1
  | masterHeard p hh _ _ _ hc' _ _ _ _ htx =>
    have k := hrx p hh
    refine ⟨⟨wf', by rw [hc']; exact fun ht => ⟨k.2 ht, .inl k.1⟩, hc.1, hc.2⟩, fun q hq ht => ?_⟩
    rw [htx] at hq
    rcases List.mem_singleton.1 hq with rfl
    exact .inl k.1
  | change q hf =>
    have h2 : q.data[2].toNat < 22 := Nat.lt_of_lt_of_le (Props.fresh_choice_in_range hf g.effects g.palettes.1).2 g.palettes.2
    have h3 : 3 ≤ q.len.toNat := by rw [hf.len]; decide
    refine ⟨⟨wf', Packet.Unbroken.same hf.adopted fun _ => ⟨h2, .inr h3⟩, hc.1, hc.2⟩, fun x hx _ => ?_⟩
    rw [hf.sent] at hx
    rcases List.mem_singleton.1 hx with rfl
    exact .inr ⟨h3, h2⟩
  | repeats q hf =>
    refine ⟨⟨wf', Packet.Unbroken.same hf.kept g.now, hc.1, hc.2⟩, fun x hx ht => ?_⟩
    rw [hf.sent] at hx
    rcases List.mem_singleton.1 hx with rfl
    have k : x.Unbroken := Packet.Unbroken.same hf.same g.now
    exact (k ht).2.imp id fun h => ⟨h, (k ht).1⟩

theorem frames_harmless {l : List Packet} {fs} (h : l.mapM Hw.sendPacket = .ok fs)
    (k : ∀ q ∈ l, q.type = .setEffect → q.len = 0 ∨ 3 ≤ q.len.toNat ∧ q.data[2].toNat < 22) :
    ∀ f ∈ fs, Harmless f := by
  induction l generalizing fs with
  | nil => cases h; exact List.forall_mem_nil _
  | cons a l ih =>
    rw [List.mapM_cons] at h
    simp only [bind, Except.bind] at h
    split at h
    · cases h
    · rename_i f hf
      split at h
      · cases h
      · rename_i fs' hfs
        cases h
        intro x hx
        rcases List.mem_cons.1 hx with rfl | hx
        · exact Packet.Unbroken.frame (k a List.mem_cons_self) hf
        · exact ih hfs (fun q hq => k q (List.mem_cons_of_mem _ hq)) x hx

theorem network_sound {n nbrs} {net : HwNet n} (hr : HwNet.Reach nbrs net)
    (sound : ∀ i, ∀ e ∈ net.hist i, SoundCall e) :
    (∀ i, (net.node i).Unbroken) ∧ ∀ x ∈ net.air, Harmless x.2 := by
  induction hr with
  | boot b =>
    refine ⟨fun i => ?_, by rw [b.air]; exact List.forall_mem_nil _⟩
    obtain ⟨_, _, _, _, h⟩ := b.node i
    rw [h]; exact .init
  | @step net net' _ st ih =>
    cases st with
    | act i op hrx hproper hst hfs =>
      rename_i s' fs
      obtain ⟨h1, h2⟩ := ih fun k e he => sound k e (by
        dsimp only
        split
        · rename_i hk; subst hk; exact List.mem_cons_of_mem _ he
        · exact he)
      have ho : SoundCall ⟨net.node i, op, s'⟩ := sound i ⟨net.node i, op, s'⟩ (by simp)
      have hh : ∀ p, Entry.heard ⟨net.node i, op, s'⟩ = some p →
          p.len = 0 ∧ (p.type = .setEffect → p.data[2].toNat < 22) := by
        intro p hp
        cases op with
        | radioTick now rx =>
          cases heard_rx (h1 i).wf hp
          obtain ⟨l, _, hl, hair⟩ := hrx now _ rfl
          obtain ⟨f, hf, _, d⟩ := Board.Listen.packet_decodes hl
          obtain ⟨j, _, hj⟩ := hair f hf
          exact ⟨d.len, d.palette (h2 _ hj)⟩
        | _ => simp [Entry.heard] at hp
      obtain ⟨k1, k2⟩ := (h1 i).step ho hh hst
      refine ⟨fun k => ?_, fun x hx => ?_⟩
      · dsimp only
        split
        · exact k1
        · exact h1 k
      · rcases List.mem_append.1 hx with hx | hx
        · obtain ⟨f, hf, rfl⟩ := List.mem_map.1 hx
          exact frames_harmless hfs k2 f hf
        · exact h2 x hx


theorem tickEntries_of_tick {l₁ l₂ : Board.Listen} {s s' : Node} {fs} (ht : Board.tick l₁ l₂ s = .ok (s', fs)) :
    ∃ es, Board.tickEntries l₁ l₂ s = .ok es := by
  obtain ⟨s₁, f₁, h1, h⟩ := Board.tick_ok ht
  obtain ⟨rx, hp, hst, hf⟩ := Board.radioTick_ok.1 h1
  have hst' : s.radioTick .arduino l₁.now rx = .ok s₁ := hst
  simp only [Board.tickEntries, bind, Except.bind, pure, Except.pure, hp, hst']
  rcases h with ⟨h, _⟩ | ⟨h, s₂, f₂, h2, _⟩
  · rw [h]; exact ⟨_, rfl⟩
  · obtain ⟨rx₂, hp₂, hst₂, _⟩ := Board.radioTick_ok.1 h2
    have hst₂' : s₁.radioTick .arduino l₂.now rx₂ = .ok s₂ := hst₂
    rw [h, if_pos rfl, hp₂]
    simp only [hst₂']
    exact ⟨_, rfl⟩

theorem board_entries_ok {env : Board.Env} {inp : Board.Input} {s s' : Board.State}
    (h : Board.loop env inp s = .ok s') : ∃ es, Board.entries env inp s = .ok es := by
  unfold Board.entries
  by_cases hc : env.program = .fancyNode ∧ (Battery.step .fancyNode s.low inp.battery).active = false
  · rw [if_pos hc]; exact ⟨_, rfl⟩
  · rw [if_neg hc]
    have ha : BoardAwake env s inp := by
      intro hp
      cases hb : (Battery.step .fancyNode s.low inp.battery).active with
      | true => rfl
      | false => exact absurd ⟨hp, hb⟩ hc
    obtain ⟨fs, leds, ht, _⟩ := board_loop_awake ha h
    exact tickEntries_of_tick ht

theorem tickEntries_sound {l₁ l₂ : Board.Listen} {s : Node} {es} (h : Board.tickEntries l₁ l₂ s = .ok es) :
    ∀ e ∈ es, SoundCall e := by
  have t : ∀ now rx s s', SoundCall ⟨s, .radioTick now rx, s'⟩ := fun _ _ _ _ => ⟨nofun, nofun, nofun⟩
  have d : ∀ now s s', SoundCall ⟨s, .endTick now, s'⟩ := fun _ _ _ => ⟨nofun, nofun, nofun⟩
  simp only [Board.tickEntries, bind, Except.bind, pure, Except.pure] at h
  repeat' split at h
  all_goals first
    | cases h; done
    | (cases h
       intro e he
       simp only [List.mem_cons, List.not_mem_nil, or_false] at he
       rcases he with rfl | rfl | rfl <;> first | exact t _ _ _ _ | exact d _ _ _)
    | (cases h
       intro e he
       simp only [List.mem_cons, List.not_mem_nil, or_false] at he
       rcases he with rfl | rfl <;> first | exact t _ _ _ _ | exact d _ _ _)

theorem light_net_sound {n dev nbrs} {x : LightNet n} (hr : LightNet.Reach dev nbrs x)
    (shipped : ∀ i env, dev i = some env → ShippedBoard env) :
    (∀ i env, dev i = some env → ∀ e ∈ x.net.hist i, SoundCall e) ∧
    ∀ i env, dev i = some env → ∀ y ∈ x.iter i, ∀ f, some f ∈ offered y.2.1 → ∃ j, (j, f) ∈ x.net.air := by
  induction hr with
  | boot hb =>
    refine ⟨fun i env hd => ?_, fun i env hd => ?_⟩
    all_goals obtain ⟨t₀, rand, _, _, hi, hh⟩ := hb.board i env hd
    · rw [hh]
      obtain ⟨seeds, hr⟩ := (shipped i env hd).effects
      obtain ⟨r, e, hn, _⟩ := Props.shipped_registry .arduino seeds
      rw [hr] at e
      cases e
      intro e he
      simp only [LightNet.setupEntries, List.mem_cons, List.not_mem_nil, or_false] at he
      rcases he with rfl | rfl
      · refine ⟨nofun, fun now k h => ?_, nofun⟩
        cases h
        exact ⟨by decide, by decide⟩
      · refine ⟨fun now k h => ?_, nofun, nofun⟩
        cases h
        rw [hn]; decide
    · rw [hi]; exact List.forall_mem_nil _
  | @step x x' _ st ih =>
    cases st with
    | @board i env inp s' es hdev hread hloop hes =>
      refine ⟨fun k env' hk e he => ?_, fun k env' hk y hy f hf => ?_⟩
      · dsimp only at he
        split at he
        · rename_i hki; subst hki
          rcases List.mem_append.1 he with he | he
          · unfold Board.entries at hes
            split at hes
            · cases hes; cases he
            · exact tickEntries_sound hes e he
          · exact ih.1 k env' hk e he
        · exact ih.1 k env' hk e he
      · have old : (∃ j, (j, f) ∈ x.net.air) → ∃ j, (j, f) ∈
            (s'.aired.drop (x.board i).aired.length).map (i, ·) ++ x.net.air :=
          fun ⟨j, hj⟩ => ⟨j, List.mem_append.2 (.inr hj)⟩
        dsimp only at hy
        split at hy
        · rename_i hki; subst hki
          rcases List.mem_cons.1 hy with rfl | hy
          · simp only [offered, List.mem_cons, List.not_mem_nil, or_false] at hf
            rcases hf with hf | hf
            · obtain ⟨j, _, hj⟩ := hread inp.first (by simp) f hf.symm
              exact old ⟨j, hj⟩
            · obtain ⟨j, _, hj⟩ := hread inp.second (by simp) f hf.symm
              exact old ⟨j, hj⟩
          · exact old (ih.2 k env' hk y hy f hf)
        · exact old (ih.2 k env' hk y hy f hf)
    | @other net' hstep hsame =>
      refine ⟨fun k env' hk e he => ?_, fun k env' hk y hy f hf => ?_⟩
      · rw [(hsame k env' hk).2] at he
        exact ih.1 k env' hk e he
      · obtain ⟨j, hj⟩ := ih.2 k env' hk y hy f hf
        cases hstep with
        | act i op _ _ _ _ => exact ⟨j, List.mem_append.2 (.inr hj)⟩

namespace Props

/-! ## C181: an installation does not bring itself down -/

/-- C181, first part.  In a network of any number of devices that are configured and given instructions as the programs
of the repository do it, every frame that ever goes on the air is harmless: at most 61 bytes, and naming an existing
palette if it is a set-effect frame with a payload. -/
theorem network_harmless {n nbrs} {net : HwNet n} (hr : HwNet.Reach nbrs net)
    (sound : ∀ i, ∀ e ∈ net.hist i, SoundCall e) : ∀ j f, (j, f) ∈ net.air → Harmless f :=
  fun j f h => (network_sound hr sound).2 (j, f) h

/-- C181, second part.  No LED board of an installation ever runs into undefined behaviour: whatever has happened so far,
every board can perform its next iteration, for any clock, battery and analog readings and with any frames its neighbours have
put on the air — provided the other devices (controllers, key pads) have only been given sound instructions. -/
theorem installation_never_faults {n dev nbrs} {x : LightNet n} (hr : LightNet.Reach dev nbrs x)
    (shipped : ∀ i env, dev i = some env → ShippedBoard env)
    (others : ∀ i, dev i = none → ∀ e ∈ x.net.hist i, SoundCall e)
    {i env} (hd : dev i = some env) {inp} (hin : ReadsAir nbrs x i inp) :
    ∃ s', Board.loop env inp (x.board i) = .ok s' ∧
      ∃ x', LightNet.Step dev nbrs x x' ∧ x'.iter i = (x.board i, inp, s') :: x.iter i := by
  obtain ⟨h1, h2⟩ := light_net_sound hr shipped
  obtain ⟨⟨A, hA, hA'⟩, hb⟩ := installation_is_network hr
  have safe : ∀ j f, (j, f) ∈ x.net.air → Harmless f := fun j f h =>
    network_harmless hA (fun k e he => by
      cases hk : dev k with
      | none => exact others k hk e he
      | some env' => exact h1 k env' hk e he) j f ((hA' _).2 h)
  obtain ⟨-, t₀, rand, run⟩ := hb i env hd
  obtain ⟨seeds, hreg⟩ := (shipped i env hd).effects
  obtain ⟨s', hs'⟩ := board_never_faults hreg (shipped i env hd).some_leds (shipped i env hd).leds
    (shipped i env hd).controller run
    (fun y hy f hf => by obtain ⟨j, hj⟩ := h2 i env hd y hy f hf; exact safe j f hj) inp
    (fun f hf => by obtain ⟨j, _, hj⟩ := hin f hf; exact safe j f hj)
  obtain ⟨es, hes⟩ := board_entries_ok hs'
  refine ⟨s', hs', _, .board i env inp hd (fun l hl f hf => hin f ?_) hs' hes, by simp⟩
  simp only [List.mem_cons, List.not_mem_nil, or_false] at hl
  rcases hl with rfl | rfl <;> simp [offered, hf]

namespace LightDemo

/-- The middle board, master, goes on to send a heartbeat and its instruction. -/
def x₂ : LightNet 3 := (goes x₀ [(1, at_ 9100 none), (1, at_ 10050 none)]).getD start

theorem x₂_eq : goes x₀ [(1, at_ 9100 none), (1, at_ 10050 none)] = some x₂ :=
  HwDemo.some_getD (by decide +kernel)

end LightDemo

open LightDemo HwDemo in
/-- The hypotheses are met: of three boards the middle one has become master and has sent its instruction (effect 1,
palette 0), which the first one can read next. -/
example : LightNet.Reach dev nbrs x₂ ∧ (∀ i env, dev i = some env → ShippedBoard env) ∧
    (∀ i, dev i = none → ∀ e ∈ x₂.net.hist i, SoundCall e) ∧
    ReadsAir nbrs x₂ 0 (at_ 10061 (some [0, 33, 2, 1, 0, 0])) := by
  have key : ∀ x, LightNet.Steps dev nbrs x₀ x → LightNet.Reach dev nbrs x := by
    intro x h
    induction h with
    | refl => exact x₀_reach
    | step _ hs ih => exact .step ih hs
  refine ⟨key _ (goes_steps .refl x₂_eq), fun i env hd => ?_, fun i hd => (by cases hd), fun f hf => ?_⟩
  · cases hd
    exact ⟨⟨_, Board.Demo.env_shipped .node⟩, by decide, by decide, by decide⟩
  · simp only [offered, List.mem_cons, List.not_mem_nil, or_false] at hf
    rcases hf with hf | hf
    · cases hf
      exact ⟨1, by decide, by decide +kernel⟩
    · cases hf


/-! ### Controllers -/

theorem told_sound {now p s s'} (h : p.type = .setEffect → 3 ≤ p.len.toNat ∧ p.data[2].toNat < 22) :
    SoundCall ⟨s, .setEffect now p, s'⟩ := ⟨nofun, nofun, fun _ _ ho => by cases ho; exact fun ht => ⟨(h ht).1, .inl (h ht).2⟩⟩

open Controller in
theorem controller_buffer {env : Env} {seeds : EffectSeeds} (hreg : shippedRegistry env.plat seeds = .ok env.registry)
    {t₀ rand rng gauge h s} (r : Controller.Run env (init env t₀ rand rng gauge) h s) :
    s.setEffectPacket.type = .setEffect → 3 ≤ s.setEffectPacket.len.toNat ∧ s.setEffectPacket.data[2].toNat < 22 := by
  induction r with
  | nil => exact nofun
  | @cons h s s' inp r hl ih =>
    obtain ⟨h1, h2, h3⟩ := buffer_step hl
    by_cases ha : Awake s inp ∧ (EffectMode inp ∨ PaletteMode inp)
    · rcases ha with ⟨ha, hm | hm⟩
      · obtain ⟨_, k1, _, _, k2⟩ := h1 ha hm
        intro _
        rw [k1, k2]
        exact ⟨by decide, (selection_valid hreg (.cons inp r hl)).2⟩
      · rcases pressed_cases inp with hn | ⟨side, b, hf⟩
        · obtain ⟨_, k1, _, _, k2⟩ := h3 ha hm hn
          intro _
          rw [k1, k2]
          exact ⟨by decide, by decide⟩
        · obtain ⟨node, ht, hk⟩ := loop_ok ha hl
          rw [runMode, modeOf_palette hm] at hk
          obtain ⟨y, _, _, _, _, hp⟩ := runPaletteMode_ok hk
          intro _
          rw [(hp side b hf).1]
          have := number_lt (side := side) (pressedIndex_some hf).2
          refine ⟨by show 3 ≤ (3 : U8).toNat; decide, ?_⟩
          simp only [Packet.writeSetEffect, Vector.getElem_set_self]
          rw [BitVec.toNat_ofNat]
          omega
    · rw [(h2 ha).1]; exact ih

open Controller in
/-- C181: whatever is done with a hand-held controller, its network part is only given sound instructions, so it is such a
device as C181 assumes. -/
theorem controller_sound {env : Env} {seeds : EffectSeeds} (hreg : shippedRegistry env.plat seeds = .ok env.registry)
    {t₀ rand rng gauge h s} (r : Controller.Run env (init env t₀ rand rng gauge) h s) :
    ∃ h', Firefly.Run env.plat t₀ h' s.node ∧ ∀ e ∈ h', SoundCall e := by
  suffices H : ∃ h', Exec env.plat (Node.init t₀ rand (.heartbeat, Vector.replicate 58 0)
      (.heartbeat, Vector.replicate 58 0)) h' s.node ∧ ∀ e ∈ h', SoundCall e by
    obtain ⟨h', x, k⟩ := H
    exact ⟨h', ⟨rand, _, _, x⟩, k⟩
  induction r with
  | nil =>
    obtain ⟨r, e, hn, _⟩ := shipped_registry env.plat seeds
    rw [hreg] at e
    cases e
    refine ⟨_, .cons (.setNumPalettes t₀ numPalettes)
      (.cons (.setNumEffects t₀ env.registry.getNumEffects) .nil rfl) rfl, fun e he => ?_⟩
    rcases List.mem_cons.1 he with rfl | he
    · exact ⟨nofun, fun _ _ h => by cases h; exact ⟨by decide, by decide⟩, nofun⟩
    · rcases List.mem_singleton.1 he with rfl
      exact ⟨fun _ _ h => by cases h; rw [hn]; decide, nofun, nofun⟩
  | @cons h s s' inp r hl ih =>
    obtain ⟨h', x, k⟩ := ih
    by_cases ha : Awake s inp
    · obtain ⟨node, ht, hm⟩ := loop_ok ha hl
      have tick : ∃ h'', Exec env.plat (Node.init t₀ rand (.heartbeat, Vector.replicate 58 0)
          (.heartbeat, Vector.replicate 58 0)) h'' node ∧ ∀ e ∈ h'', SoundCall e := by
        have t : ∀ now rx s s', SoundCall ⟨s, .radioTick now rx, s'⟩ := fun _ _ _ _ => ⟨nofun, nofun, nofun⟩
        have d : ∀ now s s', SoundCall ⟨s, .endTick now, s'⟩ := fun _ _ _ => ⟨nofun, nofun, nofun⟩
        obtain ⟨s₁, h1, ⟨_, h2⟩ | ⟨_, s₂, h2, h3⟩⟩ := Node.tick_eq_ops.1 ht
        · refine ⟨_, .cons _ (.cons _ x h1) h2, fun e he => ?_⟩
          rcases List.mem_cons.1 he with rfl | he
          · exact d _ _ _
          rcases List.mem_cons.1 he with rfl | he
          · exact t _ _ _ _
          · exact k e he
        · refine ⟨_, .cons _ (.cons _ (.cons _ x h1) h2) h3, fun e he => ?_⟩
          rcases List.mem_cons.1 he with rfl | he
          · exact d _ _ _
          rcases List.mem_cons.1 he with rfl | he
          · exact t _ _ _ _
          rcases List.mem_cons.1 he with rfl | he
          · exact t _ _ _ _
          · exact k e he
      obtain ⟨h'', x', k'⟩ := tick
      have told : ∀ {p n}, node.setEffect env.plat inp.now p = .ok n →
          (p.type = .setEffect → 3 ≤ p.len.toNat ∧ p.data[2].toNat < 22) →
          ∃ g, Exec env.plat (Node.init t₀ rand (.heartbeat, Vector.replicate 58 0)
            (.heartbeat, Vector.replicate 58 0)) g n ∧ ∀ e ∈ g, SoundCall e := by
        intro p n hn hw
        refine ⟨_, .cons (.setEffect inp.now p) x' hn, fun e he => ?_⟩
        rcases List.mem_cons.1 he with rfl | he
        · exact told_sound hw
        · exact k' e he
      rcases mode_cases inp with h1 | h1 | h1
      · rw [runMode, modeOf_effect h1] at hm
        obtain ⟨s₁, e, y, z, h2, _, _, _, h3⟩ := runEffectMode_ok hm
        have h4 : s'.node = s₁.node := by rw [h3]
        rw [h4]
        have hcase : s₁.node = node ∨ node.setEffect env.plat inp.now s.setEffectPacket = .ok s₁.node := by
          unfold select at h2
          by_cases c0 : inp.left.b0 = true
          · rw [if_pos c0] at h2; split at h2
            · cases h2
            · cases h2; exact .inl rfl
          rw [if_neg c0] at h2
          by_cases c1 : inp.right.b0 = true
          · rw [if_pos c1] at h2; split at h2
            · cases h2
            · cases h2; exact .inl rfl
          rw [if_neg c1] at h2
          by_cases c2 : inp.left.b1 = true
          · rw [if_pos c2] at h2; cases h2; exact .inl rfl
          rw [if_neg c2] at h2
          by_cases c3 : inp.right.b1 = true
          · rw [if_pos c3] at h2; cases h2; exact .inl rfl
          rw [if_neg c3] at h2
          by_cases c4 : inp.bottom.b0 = true
          · rw [if_pos c4] at h2
            simp only [bind, Except.bind] at h2
            split at h2
            · cases h2
            · rename_i n hn; cases h2
              exact .inr hn
          · rw [if_neg c4] at h2; cases h2; exact .inl rfl
        rcases hcase with h5 | h5
        · rw [h5]; exact ⟨_, x', k'⟩
        · exact told h5 (controller_buffer hreg r)
      · rw [runMode, modeOf_colour h1] at hm
        obtain ⟨y, _, _, _, h2, h3⟩ := runColorMode_ok hm
        rcases pressed_cases inp with hn | ⟨side, b, hf⟩
        · rw [h2 hn]; exact ⟨_, x', k'⟩
        · exact told (h3 side b hf) nofun
      · rw [runMode, modeOf_palette h1] at hm
        obtain ⟨y, _, _, _, h2, h3⟩ := runPaletteMode_ok hm
        rcases pressed_cases inp with hn | ⟨side, b, hf⟩
        · rw [(h2 hn).1]; exact ⟨_, x', k'⟩
        · exact told (h3 side b hf).2 (controller_buffer hreg (.cons inp r hl))
    · rw [loop_asleep ha] at hl
      cases hl
      exact ⟨h', x, k⟩

open Controller in
/-- A controller that broadcast its selection, with palette 21, the last one. -/
example : ∃ h s, Controller.Run Demo.env Demo.start h s ∧ shippedRegistry Demo.env.plat ⟨1, 2, 3⟩ = .ok Demo.env.registry ∧
    s.node.getSetEffect.type = .setEffect ∧ s.node.getSetEffect.data[2] = 21 ∧ s.node.sent ≠ [] := by
  obtain ⟨h, s, r, c⟩ := Demo.run_of_check
    (l := [{ Demo.quiet 1200 900 with bottom := Demo.first3 }, { Demo.quiet 1150 900 with left := Demo.second3 }])
    (fun _ s => decide (s.node.getSetEffect.type = .setEffect ∧ s.node.getSetEffect.data[2] = 21 ∧ s.node.sent ≠ []))
    (by decide +kernel)
  exact ⟨h, s, r, rfl, of_decide_eq_true c⟩

/-! ### Key pads -/

section
open Trellis
variable {env : Trellis.Env} {seeds : EffectSeeds}

theorem keypad_key_sound (s : Trellis.State) (wf : s.node.WF) (e : Trellis.Event) :
    ∃ h, Exec .arduino s.node h (result env s e).node ∧
      ∀ x ∈ h, x.pre.getSetEffect.type = .setEffect → SoundCall x := by
  have one : ∀ a, ∃ h, Exec .arduino s.node h (s.node.afterSetEffect .arduino e.now (blank.writeSetEffect a 60 0)) ∧
      ∀ x ∈ h, x.pre.getSetEffect.type = .setEffect → SoundCall x := fun a =>
    ⟨_, .cons (.setEffect e.now _) .nil (setEffect_ok wf.idx _ _), fun x hx _ => by
      rcases List.mem_singleton.1 hx with rfl
      exact told_sound fun _ => ⟨by show 3 ≤ (3 : U8).toNat; decide, by simp [Packet.writeSetEffect]⟩⟩
  have two : ∀ a b, (b.toNat < 22 ∨ b = s.node.getSetEffect.data[2]) →
      ∃ h, Exec .arduino s.node h (twice e (blank.writeSetEffect a 60 b) s.node) ∧
        ∀ x ∈ h, x.pre.getSetEffect.type = .setEffect → SoundCall x := fun a b hb =>
    ⟨_, .cons (.setEffect e.later _) (.cons (.setEffect e.now _) .nil (setEffect_ok wf.idx _ _))
      (setEffect_ok (wf_after wf _ _).idx _ _), fun x hx ht => by
      rcases List.mem_cons.1 hx with rfl | hx
      · refine ⟨nofun, nofun, fun now p ho _ => ?_⟩
        cases ho
        exact ⟨by show 3 ≤ (3 : U8).toNat; decide, .inr ⟨ht, rfl⟩⟩
      · rcases List.mem_singleton.1 hx with rfl
        refine ⟨nofun, nofun, fun now p ho _ => ?_⟩
        cases ho
        refine ⟨by show 3 ≤ (3 : U8).toNat; decide, hb.imp (fun h => ?_) fun h => ⟨ht, ?_⟩⟩
        · simpa [Packet.writeSetEffect] using h
        · simpa [Packet.writeSetEffect] using h⟩
  unfold result release
  repeat' split
  all_goals first
    | exact one _
    | exact two _ _ (.inl (by assumption))
    | exact two _ _ (.inr rfl)
    | exact ⟨[], .nil, List.forall_mem_nil _⟩

theorem keypad_keys_sound (l : List Trellis.Event) {s : Trellis.State} (wf : s.node.WF) :
    ∃ h, Exec .arduino s.node h (l.foldl (result env) s).node ∧
      ∀ x ∈ h, x.pre.getSetEffect.type = .setEffect → SoundCall x := by
  induction l generalizing s with
  | nil => exact ⟨[], .nil, List.forall_mem_nil _⟩
  | cons e l ih =>
    obtain ⟨h, x, k⟩ := ih (result_wf (env := env) wf e)
    obtain ⟨h', x', k'⟩ := keypad_key_sound (env := env) s wf e
    refine ⟨_, exec_append x' x, fun y hy => ?_⟩
    rcases List.mem_append.1 hy with hy | hy
    · exact k y hy
    · exact k' y hy

/-- C181: whatever is done with a key pad, its network part is only given sound instructions, except while it follows a
colour. -/
theorem keypad_sound (hreg : shippedRegistry .arduino seeds = .ok env.registry)
    {t₀ rand z z' rng h s} (r : Trellis.Run env (Trellis.init env t₀ rand z z' rng) h s) :
    ∃ h', Firefly.Run .arduino t₀ h' s.node ∧
      ∀ e ∈ h', e.pre.getSetEffect.type = .setEffect → SoundCall e := by
  have t : ∀ now rx s s', SoundCall ⟨s, .radioTick now rx, s'⟩ := fun _ _ _ _ => ⟨nofun, nofun, nofun⟩
  have d : ∀ now s s', SoundCall ⟨s, .endTick now, s'⟩ := fun _ _ _ => ⟨nofun, nofun, nofun⟩
  induction r with
  | nil =>
    obtain ⟨r, e, hn, _⟩ := shipped_registry .arduino seeds
    rw [hreg] at e
    cases e
    refine ⟨_, ⟨rand, z, z', .cons (.setNumPalettes t₀ _) (.cons (.setNumEffects t₀ _) .nil rfl) rfl⟩, fun e he _ => ?_⟩
    rcases List.mem_cons.1 he with rfl | he
    · exact ⟨nofun, fun _ _ h => by cases h; exact ⟨by decide, by decide⟩, nofun⟩
    · rcases List.mem_singleton.1 he with rfl
      exact ⟨fun _ _ h => by cases h; rw [hn]; decide, nofun, nofun⟩
  | @cons h s s' inp _ hl ih =>
    obtain ⟨h', ⟨rd, j, j', x⟩, k⟩ := ih
    have wf := Run.wf ⟨rd, j, j', x⟩
    obtain ⟨node, ht, wf', _, _, p, r, rfl⟩ := Trellis.loop_ok hreg wf hl
    obtain ⟨h₃, x'', k''⟩ := keypad_keys_sound (env := env) inp.events (s := { s with node := node }) wf'
    obtain ⟨s₁, h1, ⟨_, h2⟩ | ⟨_, s₂, h2, h3⟩⟩ := Node.tick_eq_ops.1 ht
    · refine ⟨_, ⟨rd, j, j', exec_append (.cons _ (.cons _ x h1) h2) x''⟩, fun e he => ?_⟩
      rcases List.mem_append.1 he with he | he
      · exact k'' e he
      rcases List.mem_cons.1 he with rfl | he
      · exact fun _ => d _ _ _
      rcases List.mem_cons.1 he with rfl | he
      · exact fun _ => t _ _ _ _
      · exact k e he
    · refine ⟨_, ⟨rd, j, j', exec_append (.cons _ (.cons _ (.cons _ x h1) h2) h3) x''⟩, fun e he => ?_⟩
      rcases List.mem_append.1 he with he | he
      · exact k'' e he
      rcases List.mem_cons.1 he with rfl | he
      · exact fun _ => d _ _ _
      rcases List.mem_cons.1 he with rfl | he
      · exact fun _ => t _ _ _ _
      rcases List.mem_cons.1 he with rfl | he
      · exact fun _ => t _ _ _ _
      · exact k e he

/-- A key pad on which palette 3 was chosen, and then, in effect mode, an effect, with which it sends that palette. -/
example : ∃ h s, Trellis.Run Demo.env Demo.start h s ∧ shippedRegistry .arduino ⟨1, 2, 3⟩ = .ok Demo.env.registry ∧
    s.node.getSetEffect.type = .setEffect ∧ s.node.getSetEffect.data[2] = 3 ∧ s.node.sent.length = 4 := by
  obtain ⟨h, s, r, hc⟩ := Demo.run_of_check
    (l := [Demo.input 1200 none [Demo.down 2 1200],
      Demo.input 1100 none [Demo.down 3 1100, Demo.up 3 1120, Demo.down 14 1130]])
    (fun _ s => decide (s.node.getSetEffect.type = .setEffect ∧ s.node.getSetEffect.data[2] = 3 ∧
      s.node.sent.length = 4))
    (by decide +kernel)
  exact ⟨h, s, r, Demo.env_shipped, of_decide_eq_true hc⟩

end

end Props
end Firefly
