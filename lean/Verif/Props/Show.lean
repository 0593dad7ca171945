import Verif.Lemmas.Show
import Verif.Props.Effects

/-! # Properties of an installation of LED boards (C115–C117) -/

set_option linter.unusedSimpArgs false

namespace Firefly.Props
open Firefly Spec

/-! ## C115: an installation is a network of devices -/

/-- C115.  Whatever happens in an installation of LED boards and other devices is, seen from the
radio, something that can happen in a network of radio devices (C97–C99, C110–C112), with the same
frames on the air; and what each board does is a run of its program (C93–C96) whose state machine
is the network device. -/
theorem installation_is_network {n dev nbrs} {x : LightNet n} (hr : LightNet.Reach dev nbrs x) :
    (∃ A, HwNet.Reach nbrs { x.net with air := A } ∧ ∀ y, y ∈ A ↔ y ∈ x.net.air) ∧
    ∀ i env, dev i = some env → x.net.node i = (x.board i).node ∧
      ∃ t₀ rand, Board.Run env (Board.init env t₀ rand) (x.iter i) (x.board i) := by
  obtain ⟨lk, h⟩ := light_reach hr
  exact ⟨h, fun i env hd => ⟨lk.node i env hd, lk.run i env hd⟩⟩

/-! ## C116: in a settled installation everybody takes part in the master's show -/

/-- On the device itself only the type and the bytes that are read matter. -/
theorem getColour_carries {F : FastLED} {e : Effect} {led : U8} {t : U32} {strip : Strip}
    {p q : Packet} {rng : U16} (h : Carries p q) (hq : Complete q)
    (he : e = .control → q.type = .setControl) :
    e.getColour F .arduino led t strip p rng = e.getColour F .arduino led t strip q rng := by
  have h3 : 3 ≤ q.len.toNat := by rcases hq with h | h <;> omega
  have d1 := h.2 1 (by decide) (by omega)
  have d2 := h.2 2 (by decide) (by omega)
  have hp : paletteOf .arduino p = paletteOf .arduino q := by
    simp only [paletteOf, Packet.readPaletteIndexFromSetEffect, hostAssert, d2]
  have hc : e = .control → p.readRgbFromSetControl .arduino = q.readRgbFromSetControl .arduino := by
    intro h'
    have := he h'
    rcases hq with hq | hq
    · rw [this] at hq; cases hq.1
    · have d3 := h.2 3 (by decide) (by omega)
      simp only [Packet.readRgbFromSetControl, hostAssert, d1, d2, d3]
  cases e <;> simp only [Effect.getColour, Effects.colorCycle, Effects.contrastBumps,
    Effects.control, Effects.displayColorPalette, Effects.firefly, Effects.lightning,
    Effects.rainbowBumps, Effects.rainbow, Effects.rorschach, Effects.simpleBlink,
    Effects.spark, Effects.swingingLights, hp]
  rw [hc rfl]

theorem vecGet_mem {l : List α} {k a} (h : vecGet l k = .ok a) : a ∈ l := by
  unfold vecGet at h
  split at h
  · rename_i hk; cases h; exact List.mem_of_getElem? ‹_›
  · cases h

theorem getEffect_mem {r : Registry α} {plat i e} (h : r.getEffect plat i = .ok e) :
    e ∈ r.effects ++ r.nonRandom := by
  have key : ∀ k : Nat, (if k < r.effects.length then vecGet r.effects k
      else vecGet r.nonRandom (k - r.effects.length)) = .ok e → e ∈ r.effects ++ r.nonRandom := by
    intro k hk
    split at hk
    · exact List.mem_append_left _ (vecGet_mem hk)
    · exact List.mem_append_right _ (vecGet_mem hk)
  cases plat with
  | arduino =>
    simp only [Registry.getEffect, bind, Except.bind, pure, Except.pure] at h
    split at h
    · cases h
    · rename_i heq
      exact key _ h
  | host =>
    simp only [Registry.getEffect, bind, Except.bind, pure, Except.pure] at h
    split at h
    · cases h
    · exact key _ h

theorem addEffect_mem {r r' : Registry α} {plat a q e} (h : r.addEffect plat a q = .ok r')
    (he : e ∈ r'.effects ++ r'.nonRandom) : e ∈ r.effects ++ r.nonRandom ∨ e = a := by
  simp only [Registry.addEffect, bind, Except.bind, pure, Except.pure] at h
  split at h
  · cases h
  · cases h
    by_cases hq : 0 < q <;> simp only [hq, if_true, if_false, List.mem_append, List.mem_replicate,
      List.mem_singleton] at he ⊢ <;> grind

/-- Only what was added is registered. -/
theorem addAll_mem {plat} {l : List (α × U8)} {r r' : Registry α} (h : r.addAll plat l = .ok r')
    {e} (he : e ∈ r'.effects ++ r'.nonRandom) :
    e ∈ r.effects ++ r.nonRandom ∨ e ∈ l.map (·.1) := by
  induction l generalizing r with
  | nil => cases h; exact .inl he
  | cons x l ih =>
    simp only [Registry.addAll, List.foldlM_cons, bind, Except.bind] at h
    cases h1 : r.addEffect plat x.1 x.2 with
    | error => rw [h1] at h; cases h
    | ok r₁ =>
      rw [h1] at h
      rcases ih (r := r₁) h with h' | h'
      · rcases addEffect_mem h1 h' with h'' | rfl
        · exact .inl h''
        · exact .inr (by simp)
      · exact .inr (by simp only [List.map_cons, List.mem_cons]; exact .inr h')

/-- The effect that shows a colour instruction is not registered. -/
theorem shipped_no_control {plat s r} (h : shippedRegistry plat s = .ok r) {i e}
    (he : r.getEffect plat i = .ok e) : e ≠ .control := by
  rcases addAll_mem h (getEffect_mem he) with h' | h'
  · simp [Registry.empty] at h'
  · rintro rfl
    simp [shippedEffects] at h'

/-- On the device itself what is shown depends only on the type and the bytes that are read. -/
theorem shows_carries {F : FastLED} {seeds : EffectSeeds} {r : Registry Effect}
    (hr : shippedRegistry .arduino seeds = .ok r) {p q : Packet} (h : Carries p q)
    (hq : Complete q) (now now' : Nat → U32) (strip : Strip) (i : Nat) (t : U32) (c : CRGB) :
    Shows ⟨F, .arduino, r, p, now⟩ strip i t c ↔ Shows ⟨F, .arduino, r, q, now'⟩ strip i t c := by
  have h3 : 3 ≤ q.len.toNat := by rcases hq with h | h <;> omega
  have d0 := h.2 0 (by decide) (by omega)
  have hce : ∀ e, CurrentEffect .arduino r p e ↔ CurrentEffect .arduino r q e := by
    intro e
    simp only [CurrentEffect, h.1, d0, reduceCtorEq, false_implies]
  have hctl : ∀ e, CurrentEffect .arduino r q e → e = .control → q.type = .setControl := by
    intro e he hc
    unfold CurrentEffect at he
    split at he
    · assumption
    · exact absurd hc (shipped_no_control hr he.2)
  unfold Shows
  split
  · exact Iff.rfl
  · constructor
    · rintro ⟨e, rgb, h1, h2, h3⟩
      have hc := hctl e ((hce e).1 h1)
      refine ⟨e, rgb, (hce e).1 h1, fun rng => ?_, h3⟩
      obtain ⟨rng', h'⟩ := h2 rng
      simp only [Effect.getRGB, getColour_carries h hq hc] at h' ⊢
      exact ⟨rng', h'⟩
    · rintro ⟨e, rgb, h1, h2, h3⟩
      have hc := hctl e h1
      refine ⟨e, rgb, (hce e).2 h1, fun rng => ?_, h3⟩
      obtain ⟨rng', h'⟩ := h2 rng
      simp only [Effect.getRGB, getColour_carries h hq hc] at h' ⊢
      exact ⟨rng', h'⟩

/-- A device's instruction is one it heard, or complete. -/
theorem instruction_complete {h s₀ s} (x : Exec .arduino s₀ h s) (wf₀ : s₀.WF)
    (h₀ : Complete s₀.setEffectPacket) (hdeaf : ∀ e ∈ h, ∀ p, Entry.heard e = some p → p.len = 0)
    (hloc : ∀ e ∈ h, ∀ now p, e.op = .setEffect now p → Complete p) :
    s.setEffectPacket.len = 0 ∨ Complete s.setEffectPacket := by
  induction x with
  | nil => exact .inr h₀
  | @cons h s op s' x hst ih =>
    have ih := ih (fun e he => hdeaf e (List.mem_cons_of_mem _ he))
      (fun e he => hloc e (List.mem_cons_of_mem _ he))
    have same : ∀ {a b : Packet}, SameContent a b → Complete b → Complete a := by
      intro a b hab hb
      unfold Complete at hb ⊢
      rw [hab.1, hab.2.1]; exact hb
    cases in_step (x.wf wf₀) hst with
    | keep _ _ hc => rw [hc]; exact ih
    | takeOver _ _ _ _ hc => rw [hc]; exact ih
    | locally p hop _ hc => exact .inr (same hc (hloc _ List.mem_cons_self _ p hop))
    | slaveHeard p hh _ _ _ hc => rw [hc]; exact .inl (hdeaf _ List.mem_cons_self p hh)
    | masterHeard p hh _ _ _ hc => rw [hc]; exact .inl (hdeaf _ List.mem_cons_self p hh)
    | change q hf =>
      refine .inr (same hf.adopted (.inl ⟨hf.type, ?_⟩))
      rw [hf.len]; decide
    | repeats q hf =>
      rcases ih with ih | ih
      · exact .inl (hf.kept.2.1.trans ih)
      · exact .inr (same hf.kept ih)

theorem clock_back (a b : U32) : a + (b - a) = b := by bv_omega

theorem init_complete {t₀ rand junk junk'} :
    Complete (Node.init t₀ rand junk junk').setEffectPacket := .inl ⟨rfl, by show 3 ≤ (3 : U8).toNat; decide⟩

/-- C116.  In a settled installation (C110) the LEDs of a board that has heard a heartbeat of the
master and an instruction show the picture of an instruction the master followed when sending it
(or that was entered on a neighbouring device), at the master's network time, late only by the time
the last heartbeat was on the way: LED `k`, computed `d` ms after that heartbeat was heard, shows
the colour for the network time the master has `d` ms after sending it. -/
theorem settled_show {n dev nbrs} {x₀ x : LightNet n} (hr : LightNet.Reach dev nbrs x₀)
    {m : Fin n} (hself : m ∉ nbrs m) (hm : HwNet.SoleMaster x₀.net m)
    (hs : LightNet.Steps dev nbrs (LightNet.faded x₀) x)
    (hreg : ∀ i, i ≠ m → KeepsHearing x₀.net x.net i)
    (hcomplete : ∀ j, ∀ e ∈ x.net.hist j, ∀ now p, e.op = .setEffect now p → Complete p)
    {i : Fin n} (hi : i ≠ m) {env seeds} (hdev : dev i = some env)
    (hship : shippedRegistry .arduino seeds = .ok env.registry) (h255 : totalLeds env.device ≤ 255)
    {t} (hbeat : LastHeartbeatAt (since x₀.net x.net i) t)
    (hinstr : HeardInstruction (since x₀.net x.net i))
    {inp} (hshown : JustShown env x i inp) :
    (∃ j, i ∈ nbrs j ∧ ∃ a ∈ since x₀.net x.net j, (j = m ∨ ∃ now q, a.op = .setEffect now q) ∧
      ∃ b ∈ since x₀.net x.net m, Entry.OwnHeartbeat b ∧
        ∀ k (hk : k < (ledsInOrder env.device).length), ∃ c,
          (x.board i).leds[k + 1]? = some c ∧
          ∀ now, Shows ⟨env.F, .arduino, env.registry, a.post.getSetEffect, now⟩
            (ledsInOrder env.device)[k].1 (ledsInOrder env.device)[k].2
            ((x.net.node m).getNetworkMillis (Entry.time b + (inp.clock k - t))) c) := by
  obtain ⟨lk₀, A, hrA, hA⟩ := light_reach hr
  have lkf : Linked dev (LightNet.faded x₀) := ⟨lk₀.node, lk₀.run, lk₀.told⟩
  obtain ⟨lk, A', hsA, hA'⟩ := light_steps lkf hs (A := []) (fun y => Iff.rfl)
  have hsA : HwNet.Steps nbrs { x₀.net with air := [] } { x.net with air := A' } := hsA
  have hreg' : ∀ i, i ≠ m → KeepsHearing { x₀.net with air := A } { x.net with air := A' } i := hreg
  obtain ⟨h₁, e, h₂, hsplit, hh, hlast, rfl⟩ := hbeat
  obtain ⟨b, hb, hown, hclock⟩ := settled_clock hrA hself hm hsA hreg' hi hsplit hh hlast
  obtain ⟨g₁, e₂, g₂, p, gsplit, hp, hpi, glast⟩ := hinstr
  obtain ⟨j, hj, a, ha, hcar, hlen, hor⟩ :=
    settled_instruction hrA hself hm hsA hreg' hi gsplit hp hpi glast
  -- the instruction is complete
  have hr0 := reach_cleared hrA hsA
  have inv := hwInv_reach hr0
  have st := settled hrA hself hm hsA hreg'
  have hin : a ∈ x.net.hist j := by
    have := st.hist j
    simp only at this
    rw [this]; exact List.mem_append_left _ ha
  have hcmp : Complete a.post.getSetEffect := by
    obtain ⟨t₁, rand₁, ju₁, ju₁', y⟩ := inv.exec j
    obtain ⟨g, y', wf', hst', hsub⟩ := exec_entry y .init hin
    have hsub' : ∀ z ∈ (⟨a.pre, a.op, a.post⟩ : Entry) :: g, z ∈ x.net.hist j := by
      intro z hz
      rcases List.mem_cons.1 hz with rfl | hz
      · exact hin
      · exact hsub z hz
    rcases instruction_complete (.cons a.op y' hst') .init init_complete
      (fun z hz p hp => inv.deaf j z (hsub' z hz) p hp)
      (fun z hz => hcomplete j z (hsub' z hz)) with h | h
    · exact absurd h hlen
    · exact h
  refine ⟨j, hj, a, ha, hor, b, hb, hown, fun k hk => ?_⟩
  -- the board
  obtain ⟨s, h, hiter, hawake⟩ := hshown
  obtain ⟨t₀, rand, run⟩ := lk.run i env hdev
  rw [hiter] at run
  generalize hb' : x.board i = s' at run
  cases run with
  | cons _ run' hloop =>
    obtain ⟨c, hc, hshow⟩ := board_shows_instruction run' hawake h255 hloop k hk
    refine ⟨c, hc, fun now => ?_⟩
    have hnode : x.net.node i = s'.node := by rw [← hb']; exact lk.node i env hdev
    have hck := hclock (inp.clock k - Entry.time e)
    simp only at hck
    rw [← hck, clock_back]
    rw [hnode] at hcar ⊢
    exact (shows_carries hship hcar hcmp _ now _ _ _ _).1 hshow

/-! ## C117: in a settled installation equal boards show the same -/

/-- There is at most one colour to be shown. -/
theorem shows_unique {fr : Frame} {strip i t c c'} (h : Shows fr strip i t c)
    (h' : Shows fr strip i t c') : c = c' := by
  unfold Shows at h h'
  split at h
  · rename_i hoff
    rw [if_pos hoff] at h'
    rw [h, h']
  · rename_i hoff
    rw [if_neg hoff] at h'
    obtain ⟨e, rgb, h1, h2, rfl⟩ := h
    obtain ⟨e', rgb', h1', h2', rfl⟩ := h'
    rw [getCurrentEffect_iff] at h1 h1'
    rw [h1] at h1'
    cases h1'
    obtain ⟨_, g⟩ := h2 0
    obtain ⟨_, g'⟩ := h2' 0
    rw [g] at g'
    cases g'
    rfl

/-- Boards with the shipped effects show the same colour for the same instruction, unless the
effect has a random phase. -/
theorem shows_same {F : FastLED} {s s' : EffectSeeds} {r r' : Registry Effect}
    (hr : shippedRegistry .arduino s = .ok r) (hr' : shippedRegistry .arduino s' = .ok r')
    {p : Packet} (hphase : ∀ e, CurrentEffect .arduino r p e → ¬ HasOwnPhase e)
    {now now' strip i t c} (h : Shows ⟨F, .arduino, r, p, now⟩ strip i t c) :
    Shows ⟨F, .arduino, r', p, now'⟩ strip i t c := by
  by_cases hoff : strip.flagEnabled .off = true
  · unfold Shows at h ⊢
    rw [if_pos hoff] at h ⊢
    exact h
  · have h' := h
    unfold Shows at h'
    rw [if_neg hoff] at h'
    obtain ⟨e, _, he, _⟩ := h'
    exact (nodes_show_same_picture F .arduino s s' hr hr' p p ⟨rfl, rfl, rfl, rfl, rfl, rfl⟩ now now'
      he (hphase e he) strip i t c).1 h

/-- The picture of the instruction of the master, for a board that is told by nobody else. -/
theorem settled_show_master {n dev nbrs} {x₀ x : LightNet n} (hr : LightNet.Reach dev nbrs x₀)
    {m : Fin n} (hself : m ∉ nbrs m) (hm : HwNet.SoleMaster x₀.net m)
    (hs : LightNet.Steps dev nbrs (LightNet.faded x₀) x)
    (hreg : ∀ i, i ≠ m → KeepsHearing x₀.net x.net i)
    (hcomplete : ∀ j, ∀ e ∈ x.net.hist j, ∀ now p, e.op = .setEffect now p → Complete p)
    (hquiet : ∀ j, ∀ e ∈ since x₀.net x.net j, ∀ now p, e.op ≠ .setEffect now p)
    (hkept : ∀ e ∈ since x₀.net x.net m,
      SameContent e.post.getSetEffect (x.net.node m).getSetEffect)
    {i : Fin n} (hi : i ≠ m) {env seeds} (hdev : dev i = some env)
    (hship : shippedRegistry .arduino seeds = .ok env.registry) (h255 : totalLeds env.device ≤ 255)
    {t} (hbeat : LastHeartbeatAt (since x₀.net x.net i) t)
    (hinstr : HeardInstruction (since x₀.net x.net i))
    {inp} (hshown : JustShown env x i inp) :
    ∃ b ∈ since x₀.net x.net m, Entry.OwnHeartbeat b ∧
      ∀ k (hk : k < (ledsInOrder env.device).length), ∃ c,
        (x.board i).leds[k + 1]? = some c ∧
        ∀ now, Shows ⟨env.F, .arduino, env.registry, (x.net.node m).getSetEffect, now⟩
          (ledsInOrder env.device)[k].1 (ledsInOrder env.device)[k].2
          ((x.net.node m).getNetworkMillis (Entry.time b + (inp.clock k - t))) c := by
  obtain ⟨j, hj, a, ha, hor, b, hb, hown, hall⟩ :=
    settled_show hr hself hm hs hreg hcomplete hi hdev hship h255 hbeat hinstr hshown
  obtain rfl : j = m := by
    rcases hor with h | ⟨now, q, h⟩
    · exact h
    · exact absurd h (hquiet j a ha now q)
  refine ⟨b, hb, hown, fun k hk => ?_⟩
  obtain ⟨c, hc, hsh⟩ := hall k hk
  refine ⟨c, hc, fun now => ?_⟩
  obtain ⟨k1, k2, k3⟩ := hkept a ha
  have h := hsh now
  have same : SameInstruction a.post.getSetEffect (x.net.node j).getSetEffect :=
    ⟨k1, k2, by rw [k3], by rw [k3], by rw [k3], by rw [k3]⟩
  have hce : getCurrentEffect .arduino env.registry a.post.getSetEffect =
      getCurrentEffect .arduino env.registry (x.net.node j).getSetEffect := by
    simp only [getCurrentEffect, Packet.readEffectIndexFromSetEffect, hostAssert, k1, k3]
  unfold Shows at h ⊢
  simp only [getCurrentEffect_iff, hce, Effect.getRGB, getColour_same same] at h ⊢
  exact h

/-- C117.  Two boards of the same kind in a settled installation, while the master keeps its
instruction and nothing is entered anywhere: once both have heard a heartbeat and the instruction,
each LED shows the same colour on both, when computed at the same time after the respective
heartbeat was sent and heard, unless the effect has a random phase. -/
theorem settled_same_show {n dev nbrs} {x₀ x : LightNet n} (hr : LightNet.Reach dev nbrs x₀)
    {m : Fin n} (hself : m ∉ nbrs m) (hm : HwNet.SoleMaster x₀.net m)
    (hs : LightNet.Steps dev nbrs (LightNet.faded x₀) x)
    (hreg : ∀ i, i ≠ m → KeepsHearing x₀.net x.net i)
    (hcomplete : ∀ j, ∀ e ∈ x.net.hist j, ∀ now p, e.op = .setEffect now p → Complete p)
    (hquiet : ∀ j, ∀ e ∈ since x₀.net x.net j, ∀ now p, e.op ≠ .setEffect now p)
    (hkept : ∀ e ∈ since x₀.net x.net m,
      SameContent e.post.getSetEffect (x.net.node m).getSetEffect)
    {i i' : Fin n} (hi : i ≠ m) (hi' : i' ≠ m) {env env' seeds seeds'}
    (hdev : dev i = some env) (hdev' : dev i' = some env')
    (hship : shippedRegistry .arduino seeds = .ok env.registry)
    (hship' : shippedRegistry .arduino seeds' = .ok env'.registry)
    (hF : env.F = env'.F) (hd : env.device = env'.device) (h255 : totalLeds env.device ≤ 255)
    (hphase : ∀ e, CurrentEffect .arduino env.registry (x.net.node m).getSetEffect e →
      ¬ HasOwnPhase e)
    {t t'} (hbeat : LastHeartbeatAt (since x₀.net x.net i) t)
    (hbeat' : LastHeartbeatAt (since x₀.net x.net i') t')
    (hinstr : HeardInstruction (since x₀.net x.net i))
    (hinstr' : HeardInstruction (since x₀.net x.net i'))
    {inp inp'} (hshown : JustShown env x i inp) (hshown' : JustShown env' x i' inp') :
    ∃ b ∈ since x₀.net x.net m, ∃ b' ∈ since x₀.net x.net m,
      Entry.OwnHeartbeat b ∧ Entry.OwnHeartbeat b' ∧
      ∀ k < totalLeds env.device,
        Entry.time b + (inp.clock k - t) = Entry.time b' + (inp'.clock k - t') →
        ∃ c, (x.board i).leds[k + 1]? = some c ∧ (x.board i').leds[k + 1]? = some c := by
  obtain ⟨b, hb, hown, hall⟩ := settled_show_master hr hself hm hs hreg hcomplete hquiet hkept hi
    hdev hship h255 hbeat hinstr hshown
  obtain ⟨b', hb', hown', hall'⟩ := settled_show_master hr hself hm hs hreg hcomplete hquiet hkept
    hi' hdev' hship' (hd ▸ h255) hbeat' hinstr' hshown'
  refine ⟨b, hb, b', hb', hown, hown', fun k hk htime => ?_⟩
  have hk : k < (ledsInOrder env.device).length := by rw [ledsInOrder_length]; exact hk
  obtain ⟨c, hc, hsh⟩ := hall k hk
  obtain ⟨c', hc', hsh'⟩ := hall' k (hd ▸ hk)
  refine ⟨c, hc, ?_⟩
  have h1 := shows_same hship hship' hphase (now' := fun _ => 0) (hsh fun _ => 0)
  have h2 := hsh' fun _ => 0
  have hd' : (ledsInOrder env'.device)[k]'(hd ▸ hk) = (ledsInOrder env.device)[k] := by
    simp only [hd]
  rw [hd', ← htime, ← hF] at h2
  rw [hc', shows_unique h1 h2]

/-- C117.  The same for the master itself, if it is a board. -/
theorem settled_same_show_as_master {n dev nbrs} {x₀ x : LightNet n}
    (hr : LightNet.Reach dev nbrs x₀)
    {m : Fin n} (hself : m ∉ nbrs m) (hm : HwNet.SoleMaster x₀.net m)
    (hs : LightNet.Steps dev nbrs (LightNet.faded x₀) x)
    (hreg : ∀ i, i ≠ m → KeepsHearing x₀.net x.net i)
    (hcomplete : ∀ j, ∀ e ∈ x.net.hist j, ∀ now p, e.op = .setEffect now p → Complete p)
    (hquiet : ∀ j, ∀ e ∈ since x₀.net x.net j, ∀ now p, e.op ≠ .setEffect now p)
    (hkept : ∀ e ∈ since x₀.net x.net m,
      SameContent e.post.getSetEffect (x.net.node m).getSetEffect)
    {i : Fin n} (hi : i ≠ m) {env env' seeds seeds'}
    (hdev : dev i = some env) (hdev' : dev m = some env')
    (hship : shippedRegistry .arduino seeds = .ok env.registry)
    (hship' : shippedRegistry .arduino seeds' = .ok env'.registry)
    (hF : env.F = env'.F) (hd : env.device = env'.device) (h255 : totalLeds env.device ≤ 255)
    (hphase : ∀ e, CurrentEffect .arduino env.registry (x.net.node m).getSetEffect e →
      ¬ HasOwnPhase e)
    {t} (hbeat : LastHeartbeatAt (since x₀.net x.net i) t)
    (hinstr : HeardInstruction (since x₀.net x.net i))
    {inp inp'} (hshown : JustShown env x i inp) (hshown' : JustShown env' x m inp') :
    ∃ b ∈ since x₀.net x.net m, Entry.OwnHeartbeat b ∧
      ∀ k < totalLeds env.device, Entry.time b + (inp.clock k - t) = inp'.clock k →
        ∃ c, (x.board i).leds[k + 1]? = some c ∧ (x.board m).leds[k + 1]? = some c := by
  obtain ⟨b, hb, hown, hall⟩ := settled_show_master hr hself hm hs hreg hcomplete hquiet hkept hi
    hdev hship h255 hbeat hinstr hshown
  refine ⟨b, hb, hown, fun k hk htime => ?_⟩
  have hk : k < (ledsInOrder env.device).length := by rw [ledsInOrder_length]; exact hk
  obtain ⟨c, hc, hsh⟩ := hall k hk
  refine ⟨c, hc, ?_⟩
  have h1 := shows_same hship hship' hphase (now' := fun _ => 0) (hsh fun _ => 0)
  obtain ⟨lk₀, -⟩ := light_reach hr
  obtain ⟨lk, -⟩ := light_steps (dev := dev) (nbrs := nbrs) (x₀ := LightNet.faded x₀)
    ⟨lk₀.node, lk₀.run, lk₀.told⟩ hs (A := []) (fun y => Iff.rfl)
  obtain ⟨s, h, hiter, hawake⟩ := hshown'
  obtain ⟨t₀, rand, run⟩ := lk.run m env' hdev'
  rw [hiter] at run
  have hnode : x.net.node m = (x.board m).node := lk.node m env' hdev'
  generalize hb' : x.board m = s' at run hnode
  cases run with
  | cons _ run' hloop =>
    obtain ⟨c', hc', h2⟩ := board_shows_instruction run' hawake (hd ▸ h255) hloop k (hd ▸ hk)
    have hd' : (ledsInOrder env'.device)[k]'(hd ▸ hk) = (ledsInOrder env.device)[k] := by
      simp only [hd]
    rw [hd', ← htime, ← hF, ← hnode] at h2
    have h3 : Shows ⟨env.F, .arduino, env'.registry, (x.net.node m).getSetEffect,
        fun j => (x.net.node m).getNetworkMillis (inp'.clock j)⟩ (ledsInOrder env.device)[k].1
        (ledsInOrder env.device)[k].2
        ((x.net.node m).getNetworkMillis (Entry.time b + (inp.clock k - t))) c :=
      shows_same hship hship' hphase (hsh fun _ => 0)
    rw [hc', shows_unique h3 h2]

/-! ## A concrete installation -/

namespace LightDemo

open HwDemo (nbrs some_getD)

/-- Three boards in a row. -/
def env : Board.Env := Board.Demo.env .node
def dev : Fin 3 → Option Board.Env := fun _ => some env

def rand (i : Fin 3) : Rand := fun n => if n = 2 ∧ i = 1 then 0 else 10 * n + i

/-- Freshly powered. -/
def start : LightNet 3 where
  net :=
    { node := fun i => (Board.init env 0 (rand i)).node
      hist := fun i => LightNet.setupEntries env 0
        (Node.init 0 (rand i) (.heartbeat, Vector.replicate 58 0) (.heartbeat, Vector.replicate 58 0))
      air := [] }
  board := fun i => Board.init env 0 (rand i)
  iter := fun _ => []

/-- Board `i` may read `f`. -/
def canRead (x : LightNet 3) (i : Fin 3) (f : Option (List U8)) : Bool :=
  match f with
  | none => true
  | some f => x.net.air.any fun y => decide (i ∈ nbrs y.1) && decide (y.2 = f)

/-- Board `i` performs an iteration. -/
def go (x : LightNet 3) (i : Fin 3) (inp : Board.Input) : Option (LightNet 3) :=
  if canRead x i inp.first.frame && canRead x i inp.second.frame then
    match Board.loop env inp (x.board i), Board.entries env inp (x.board i) with
    | .ok s', .ok es => some
        { net :=
            { node := fun k => if k = i then s'.node else x.net.node k
              hist := fun k => if k = i then es ++ x.net.hist i else x.net.hist k
              air := (s'.aired.drop (x.board i).aired.length).map (i, ·) ++ x.net.air }
          board := fun k => if k = i then s' else x.board k
          iter := fun k => if k = i then (x.board i, inp, s') :: x.iter i else x.iter k }
    | _, _ => none
  else none

theorem canRead_sound {x i f} (h : canRead x i f = true) :
    ∀ g, f = some g → ∃ j, i ∈ nbrs j ∧ (j, g) ∈ x.net.air := by
  rintro g rfl
  simp only [canRead, List.any_eq_true, Bool.and_eq_true, decide_eq_true_eq] at h
  obtain ⟨y, hy, h1, rfl⟩ := h
  exact ⟨y.1, h1, hy⟩

theorem go_step {x x' i inp} (h : go x i inp = some x') : LightNet.Step dev nbrs x x' := by
  unfold go at h
  split at h
  · rename_i hc
    rw [Bool.and_eq_true] at hc
    split at h
    · rename_i s' es hl he
      cases h
      refine .board i env inp rfl ?_ hl he
      simp only [List.mem_cons, List.not_mem_nil, or_false]
      rintro l (rfl | rfl)
      · exact canRead_sound hc.1
      · exact canRead_sound hc.2
    · cases h
  · cases h

/-- Several iterations, in order. -/
def goes (x : LightNet 3) : List (Fin 3 × Board.Input) → Option (LightNet 3)
  | [] => some x
  | (i, inp) :: l => match go x i inp with
    | none => none
    | some x' => goes x' l

theorem goes_steps {l x x' y} (hy : LightNet.Steps dev nbrs y x) (h : goes x l = some x') :
    LightNet.Steps dev nbrs y x' := by
  induction l generalizing x with
  | nil => cases h; exact hy
  | cons a l ih =>
    unfold goes at h
    split at h
    · cases h
    · rename_i x₁ hg
      exact ih (.step hy (go_step hg)) h

/-- The histories are those of the nodes, which are those of the boards. -/
def Runs (x : LightNet 3) : Prop :=
  ∀ k, Firefly.Run .arduino 0 (x.net.hist k) (x.net.node k) ∧ x.net.node k = (x.board k).node

theorem go_runs {x x' i inp} (hr : Runs x) (h : go x i inp = some x') : Runs x' := by
  unfold go at h
  split at h
  · split at h
    · rename_i s' es hl he
      cases h
      intro k
      by_cases hk : k = i
      · subst hk
        obtain ⟨⟨r, ju, ju', x₀⟩, hn⟩ := hr k
        simp only [if_true]
        refine ⟨⟨r, ju, ju', ?_⟩, trivial⟩
        have ha : BoardAwake env (x.board k) inp := by intro hp; cases hp
        obtain ⟨fs, leds, ht, -⟩ := board_loop_awake ha hl
        unfold Board.entries at he
        rw [if_neg (by rintro ⟨hp, -⟩; cases hp)] at he
        refine exec_append x₀ ?_
        rw [hn]
        exact (tickEntries_ok ht he).1
      · simp only [if_neg hk]
        exact hr k
    · cases h
  · cases h

theorem goes_runs {l x x'} (hr : Runs x) (h : goes x l = some x') : Runs x' := by
  induction l generalizing x with
  | nil => cases h; exact hr
  | cons a l ih =>
    unfold goes at h
    split at h
    · cases h
    · rename_i x₁ hg
      exact ih (go_runs hr hg) h

/-- The last input of board `i`. -/
def lastInput (i : Fin 3) : List (Fin 3 × Board.Input) → Option Board.Input
  | [] => none
  | (j, inp) :: l => match lastInput i l with
    | some inp' => some inp'
    | none => if i = j then some inp else none

theorem goes_iter {l x x' i} (h : goes x l = some x') :
    (∀ inp, lastInput i l = some inp → JustShown env x' i inp) ∧
      (lastInput i l = none → x'.iter i = x.iter i ∧ x'.board i = x.board i) := by
  induction l generalizing x with
  | nil => cases h; exact ⟨nofun, fun _ => ⟨rfl, rfl⟩⟩
  | cons a l ih =>
    obtain ⟨j, inp⟩ := a
    unfold goes at h
    split at h
    · cases h
    · rename_i x₁ hg
      obtain ⟨h1, h2⟩ := ih h
      have hstep : x₁.iter i = (if i = j then (x.board j, inp, x₁.board j) :: x.iter j else x.iter i) ∧
          (i ≠ j → x₁.board i = x.board i) := by
        unfold go at hg
        split at hg
        · split at hg
          · cases hg
            by_cases hi : i = j
            · subst hi; simp
            · simp [hi]
          · cases hg
        · cases hg
      unfold lastInput
      cases hl : lastInput i l with
      | some inp' => exact ⟨fun _ he => by cases he; exact h1 _ hl, nofun⟩
      | none =>
        obtain ⟨k1, k2⟩ := h2 hl
        by_cases hi : i = j
        · subst hi
          simp only [if_true] at hstep ⊢
          refine ⟨fun _ he => ?_, nofun⟩
          cases he
          refine ⟨x.board i, x.iter i, by rw [k1, hstep.1, k2], ?_⟩
          intro hp; cases hp
        · simp only [if_neg hi] at hstep ⊢
          exact ⟨nofun, fun _ => ⟨by rw [k1, hstep.1], by rw [k2, hstep.2 hi]⟩⟩

/-- An iteration at `t` with the frame `f` on the air. -/
def at_ (t : U32) (f : Option (List U8)) : Board.Input := Board.Demo.input t 4000 f none

/-- The middle board takes over, and the others hear of it. -/
def x₀ : LightNet 3 := (goes start
  [(1, at_ 8000 none), (0, at_ 8001 (some [0, 13, 0, 0, 0, 31, 64])),
    (2, at_ 8001 (some [0, 13, 0, 0, 0, 31, 64]))]).getD start

/-- After everything on the air has faded, the master sends a heartbeat and then repeats its
instruction, which the others read. -/
def x₁ : LightNet 3 := (goes (LightNet.faded x₀)
  [(1, at_ 9100 none), (0, at_ 9111 (some [0, 2, 0, 0, 0, 35, 140])),
    (2, at_ 9121 (some [0, 2, 0, 0, 0, 35, 140])),
    (1, at_ 10050 none), (0, at_ 10061 (some [0, 33, 2, 1, 0, 0])),
    (2, at_ 10071 (some [0, 33, 2, 1, 0, 0]))]).getD start

theorem start_reach : LightNet.Reach dev nbrs start := by
  refine .boot ⟨fun i e he => ?_, fun i he => (by cases he), rfl⟩
  cases he
  exact ⟨0, rand i, rfl, rfl, rfl, rfl⟩

theorem start_runs : Runs start := fun _ => ⟨⟨_, _, _, .cons _ (.cons _ .nil rfl) rfl⟩, rfl⟩

theorem x₀_eq : goes start [(1, at_ 8000 none), (0, at_ 8001 (some [0, 13, 0, 0, 0, 31, 64])),
    (2, at_ 8001 (some [0, 13, 0, 0, 0, 31, 64]))] = some x₀ := some_getD (by decide +kernel)

theorem x₁_eq : goes (LightNet.faded x₀)
    [(1, at_ 9100 none), (0, at_ 9111 (some [0, 2, 0, 0, 0, 35, 140])),
    (2, at_ 9121 (some [0, 2, 0, 0, 0, 35, 140])),
    (1, at_ 10050 none), (0, at_ 10061 (some [0, 33, 2, 1, 0, 0])),
    (2, at_ 10071 (some [0, 33, 2, 1, 0, 0]))] = some x₁ := some_getD (by decide +kernel)

theorem x₀_reach : LightNet.Reach dev nbrs x₀ := by
  have key : ∀ x, LightNet.Steps dev nbrs start x → LightNet.Reach dev nbrs x := by
    intro x h
    induction h with
    | refl => exact start_reach
    | step _ hst ih => exact .step ih hst
  exact key _ (goes_steps .refl x₀_eq)

theorem x₁_steps : LightNet.Steps dev nbrs (LightNet.faded x₀) x₁ := goes_steps .refl x₁_eq

theorem x₁_runs : Runs x₁ := by
  have h : Runs x₀ := goes_runs start_runs x₀_eq
  exact goes_runs (x := LightNet.faded x₀) h x₁_eq

/-- Executable form of `LastHeartbeatAt`. -/
def lastHeartbeat : List Entry → Option U32
  | [] => none
  | e :: h => if Entry.HeardMaster e then some (Entry.time e) else lastHeartbeat h

theorem lastHeartbeat_sound {h t} (e : lastHeartbeat h = some t) : LastHeartbeatAt h t := by
  induction h with
  | nil => cases e
  | cons a h ih =>
    unfold lastHeartbeat at e
    split at e
    · rename_i ha
      cases e
      exact ⟨[], a, h, rfl, ha, by simp, rfl⟩
    · rename_i ha
      obtain ⟨h₁, b, h₂, rfl, k1, k2, k3⟩ := ih e
      refine ⟨a :: h₁, b, h₂, rfl, k1, ?_, k3⟩
      simp only [List.mem_cons]
      rintro c (rfl | hc)
      · exact ha
      · exact k2 c hc

/-- Nothing was entered in this step. -/
def notSet (e : Entry) : Bool := match e.op with | .setEffect _ _ => false | _ => true

theorem notSet_sound {e} (h : notSet e = true) : ∀ now p, e.op ≠ .setEffect now p := by
  intro now p he
  rw [notSet, he] at h
  cases h

/-- Executable form of `HeardInstruction`. -/
def heardInstruction : List Entry → Bool
  | [] => false
  | e :: h => match Entry.heard e with
    | none => notSet e && heardInstruction h
    | some p => decide (IsInstruction p) || (notSet e && heardInstruction h)

theorem heardInstruction_sound {h} (e : heardInstruction h = true) : HeardInstruction h := by
  induction h with
  | nil => cases e
  | cons a h ih =>
    have next : notSet a = true → heardInstruction h = true →
        (∀ p, Entry.heard a = some p → ¬ IsInstruction p) → HeardInstruction (a :: h) := by
      intro h1 h2 h3
      obtain ⟨h₁, b, h₂, p, rfl, k1, k2, k3⟩ := ih h2
      refine ⟨a :: h₁, b, h₂, p, rfl, k1, k2, ?_⟩
      simp only [List.mem_cons]
      rintro c (rfl | hc)
      · exact ⟨notSet_sound h1, h3⟩
      · exact k3 c hc
    unfold heardInstruction at e
    split at e
    · rename_i hn
      rw [Bool.and_eq_true] at e
      exact next e.1 e.2 (by rw [hn]; nofun)
    · rename_i p hp
      by_cases hi : IsInstruction p
      · exact ⟨[], a, h, p, rfl, hp, hi, by simp⟩
      · simp only [hi, decide_false, Bool.false_or, Bool.and_eq_true] at e
        exact next e.1 e.2 (by rw [hp]; rintro _ ⟨⟩; exact hi)

theorem x₁_hearing (i : Fin 3) (hi : i ≠ 1) : KeepsHearing x₀.net x₁.net i := by
  have hc : i ≠ 1 → clockOk ((x₁.net.hist i).map Entry.time ++ [0]) = true ∧
      HwDemo.regular (x₀.net.hist i) (since x₀.net x₁.net i) = true := by
    revert i; decide +kernel
  obtain ⟨h1, h2⟩ := hc hi
  exact ⟨0, (x₁_runs i).1, clock_of_check h1, fun _ _ _ hs => HwDemo.regular_sound h2 hs⟩

theorem x₀_master : HwNet.SoleMaster x₀.net 1 := by
  have h : ∀ i : Fin 3, decide ((x₀.net.node i).state = .master) = decide (i = 1) := by
    decide +kernel
  intro i
  have := h i
  rwa [decide_eq_decide] at this

theorem x₁_quiet (j : Fin 3) : ∀ e ∈ x₁.net.hist j, ∀ now p, e.op ≠ .setEffect now p := by
  have h : ∀ j : Fin 3, (x₁.net.hist j).all notSet = true := by decide +kernel
  intro e he
  exact notSet_sound (List.all_eq_true.1 (h j) e he)

theorem x₁_kept : ∀ e ∈ since x₀.net x₁.net 1,
    SameContent e.post.getSetEffect (x₁.net.node 1).getSetEffect := by
  have h : ((since x₀.net x₁.net 1).all fun e =>
      decide (e.post.getSetEffect.type = (x₁.net.node 1).getSetEffect.type) &&
      decide (e.post.getSetEffect.len = (x₁.net.node 1).getSetEffect.len) &&
      decide (e.post.getSetEffect.data = (x₁.net.node 1).getSetEffect.data)) = true := by
    decide +kernel
  intro e he
  have := List.all_eq_true.1 h e he
  simp only [Bool.and_eq_true, decide_eq_true_eq] at this
  exact ⟨this.1.1, this.1.2, this.2⟩

/-- The effect on display is the colour cycle, which has no random phase. -/
theorem x₁_phase : ∀ e, CurrentEffect .arduino env.registry (x₁.net.node 1).getSetEffect e →
    ¬ HasOwnPhase e := by
  intro e he
  rw [getCurrentEffect_iff] at he
  have h : (match getCurrentEffect .arduino env.registry (x₁.net.node 1).getSetEffect with
    | .ok .colorCycle => true
    | _ => false) = true := by decide +kernel
  rw [he] at h
  cases e <;> first | (cases h; done) | exact fun hp => hp.elim

end LightDemo

open LightDemo HwDemo in
/-- The hypotheses of C115 to C117 are met: of three boards in a row the middle one is master; the
others hear its heartbeat and then its instruction.  Their last LED values were computed at the same
time of the master's clock; the LEDs are lit. -/
example : LightNet.Reach dev nbrs x₀ ∧ 1 ∉ nbrs 1 ∧ HwNet.SoleMaster x₀.net 1 ∧
    LightNet.Steps dev nbrs (LightNet.faded x₀) x₁ ∧ (∀ i, i ≠ 1 → KeepsHearing x₀.net x₁.net i) ∧
    (∀ j, ∀ e ∈ x₁.net.hist j, ∀ now p, e.op ≠ .setEffect now p) ∧
    (∀ e ∈ since x₀.net x₁.net 1, SameContent e.post.getSetEffect (x₁.net.node 1).getSetEffect) ∧
    shippedRegistry .arduino ⟨1, 2, 3⟩ = .ok env.registry ∧ totalLeds env.device = 6 ∧
    (∀ e, CurrentEffect .arduino env.registry (x₁.net.node 1).getSetEffect e → ¬ HasOwnPhase e) ∧
    LastHeartbeatAt (since x₀.net x₁.net 0) 9111 ∧ LastHeartbeatAt (since x₀.net x₁.net 2) 9121 ∧
    HeardInstruction (since x₀.net x₁.net 0) ∧ HeardInstruction (since x₀.net x₁.net 2) ∧
    (∃ inp₀ inp₁ inp₂, JustShown env x₁ 0 inp₀ ∧ JustShown env x₁ 1 inp₁ ∧ JustShown env x₁ 2 inp₂ ∧
      ∀ k, inp₀.clock k - 9111 = inp₂.clock k - 9121 ∧ 9100 + (inp₀.clock k - 9111) = inp₁.clock k) ∧
    ((x₁.board 0).leds.drop 1).take 2 = ((x₁.board 1).leds.drop 1).take 2 ∧
    ((x₁.board 0).leds.drop 1).take 2 ≠ List.replicate 2 ⟨0, 0, 0⟩ := by
  refine ⟨x₀_reach, by decide, x₀_master, x₁_steps, x₁_hearing, x₁_quiet, x₁_kept,
    Board.Demo.env_shipped .node, by decide, x₁_phase,
    lastHeartbeat_sound (by decide +kernel), lastHeartbeat_sound (by decide +kernel),
    heardInstruction_sound (by decide +kernel), heardInstruction_sound (by decide +kernel),
    ⟨at_ 10061 (some [0, 33, 2, 1, 0, 0]), at_ 10050 none, at_ 10071 (some [0, 33, 2, 1, 0, 0]),
      (goes_iter x₁_eq).1 _ rfl, (goes_iter x₁_eq).1 _ rfl, (goes_iter x₁_eq).1 _ rfl,
      fun k => ⟨?_, ?_⟩⟩, by decide +kernel, by decide +kernel⟩
  · show (10061 + BitVec.ofNat 32 k - 9111 : U32) = 10071 + BitVec.ofNat 32 k - 9121
    generalize BitVec.ofNat 32 k = d
    bv_omega
  · show (9100 + (10061 + BitVec.ofNat 32 k - 9111) : U32) = 10050 + BitVec.ofNat 32 k
    generalize BitVec.ofNat 32 k = d
    bv_omega

end Firefly.Props
