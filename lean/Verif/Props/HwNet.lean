import Verif.Lemmas.HwNet
import Verif.Props.Election
import Verif.Props.RadioHead
import Verif.Lemmas.TwoMasters

/-! # Networks of real radio devices (C16, C97–C99) -/

namespace Firefly.Props
open Spec

/-! ## C16: on the hardware claims are lost -/

/-- C16, refuted: a claim with which a master answers a heartbeat, put on the air by the real radio,
is discarded by every receiver. -/
theorem hw_claim_never_received {plat t₀ h s} (r : Run plat t₀ h s) {now rx p s'}
    (hp : Hears s rx p) (hpt : p.type = .heartbeat) (ht : s.radioTick plat now rx = .ok s')
    {c : Packet} (hc : c ∈ claimsOf ⟨s, .radioTick now rx, s'⟩) (q : Packet) :
    ∃ frame, Hw.sendPacket c = .ok frame ∧ Hw.readPacket (some frame) q = .ok none := by
  refine empty_packet_never_received c q ?_
  have hd := hp.delivered r.wf
  cases Node.radioTick_cases r.wf ht <;>
    simp_all [claimsOf, Entry.transmitted, Node.stamped, Node.afterAccept]

/-- A concrete case: a master that stays master when it hears the heartbeat of another one. -/
example : ∃ c, c ∈ claimsOf ⟨(Demo.boot 1).2, .radioTick 6500 (some (Demo.beat 0)), Demo.answer 0 1⟩ ∧
    Run .arduino 0 (Demo.boot 1).1 (Demo.boot 1).2 ∧
    Hears (Demo.boot 1).2 (some (Demo.beat 0)) (Demo.beat 0) ∧
    (Demo.boot 1).2.radioTick .arduino 6500 (some (Demo.beat 0)) = .ok (Demo.answer 0 1) := by
  have h : (claimsOf ⟨(Demo.boot 1).2, .radioTick 6500 (some (Demo.beat 0)), Demo.answer 0 1⟩).length
      = 1 := by decide +kernel
  obtain ⟨c, hc⟩ := List.exists_mem_of_length_pos (by rw [h]; decide : 0 < _)
  exact ⟨c, hc, Demo.boot_run 1, Demo.answer_hears 0 1 (by decide), Demo.answer_tick 0 1 (by decide)⟩

/-! ## C97: on the hardware a device hears its direct neighbours only -/

/-- C97: in every network of devices on the real radio, with any topology, schedule, losses, delays
and repetitions: whatever the mesh layer of a device hands over was composed (transmitted in a step
in which nothing was heard, so not relayed) by a direct neighbour; it has the id, type and payload
of the original. -/
theorem hw_hears_neighbours_only {n nbrs} {net : HwNet n} (hr : HwNet.Reach nbrs net)
    {i : Fin n} {e : Entry} (he : e ∈ net.hist i) {p : Packet} (hp : Entry.heard e = some p) :
    ∃ j, i ∈ nbrs j ∧ ∃ e' ∈ net.hist j, ∃ q ∈ Entry.transmitted e',
      Entry.heard e' = none ∧ 1 ≤ q.len.toNat ∧ p.id = q.id ∧ Carries p q := by
  have inv := hwInv_reach hr
  obtain ⟨j, f, hj, hair, hd⟩ := inv.heard i e he p hp
  obtain ⟨e', he', q, hq, hs⟩ := inv.air j f hair
  obtain ⟨h1, h2, h3⟩ := decodes_sent hs hd
  refine ⟨j, hj, e', he', q, hq, ?_, h1, h2, h3⟩
  cases hh : Entry.heard e' with
  | none => rfl
  | some p' =>
    obtain ⟨t₀, rand, ju, ju', x⟩ := inv.exec j
    obtain ⟨h', x', wf, hst, _⟩ := exec_entry x .init he'
    have := heard_transmits_empty wf hst hh (inv.deaf j e' he' p' hh) hq
    rw [this] at h1
    exact absurd h1 (by decide)

/-! ## C98: on the hardware an instruction travels one hop -/

/-- C98: in every such network the instruction a device follows was authored (boot default, local
`SetEffect` or own choice) by the device itself or by a direct neighbour: instructions do not travel
further. -/
theorem hw_instruction_one_hop {n nbrs} {net : HwNet n} (hr : HwNet.Reach nbrs net) (i : Fin n) :
    ∃ j, (j = i ∨ i ∈ nbrs j) ∧
      ∃ a, Authored (net.hist j) a ∧ Carries (net.node i).getSetEffect a := by
  have inv := hwInv_reach hr
  obtain ⟨t₀, rand, ju, ju', x⟩ := inv.exec i
  -- the packet the instruction came from
  have key : (∃ a, Authored (net.hist i) a ∧ SameContent (net.node i).setEffectPacket a) ∨
      ∃ e ∈ net.hist i, ∃ p, Entry.heard e = some p ∧ IsInstruction p ∧
        SameContent (net.node i).setEffectPacket p := by
    have hsub : ∀ e ∈ net.hist i, e ∈ net.hist i := fun _ h => h
    generalize hN : net.hist i = H at x
    rw [hN] at hsub
    generalize net.node i = s at x
    clear hN hsub
    induction x with
    | nil =>
      refine .inl ⟨_, .inl ⟨rfl, rfl, ?_, ?_, ?_⟩, .refl⟩ <;>
        simp [Node.init, Packet.writeSetEffect]
    | @cons h s op s' hx hst ih =>
      have keep : SameContent s'.setEffectPacket s.setEffectPacket →
          (∃ a, Authored (⟨s, op, s'⟩ :: h) a ∧ SameContent s'.setEffectPacket a) ∨
          ∃ e ∈ ⟨s, op, s'⟩ :: h, ∃ p, Entry.heard e = some p ∧ IsInstruction p ∧
            SameContent s'.setEffectPacket p := by
        intro hc
        rcases ih with ⟨a, ha, hsa⟩ | ⟨e, he, p, h1, h2, h3⟩
        · refine .inl ⟨a, ?_, hc.trans hsa⟩
          rcases ha with ha | ⟨e, he, ha⟩
          · exact .inl ha
          · exact .inr ⟨e, List.mem_cons_of_mem _ he, ha⟩
        · exact .inr ⟨e, List.mem_cons_of_mem _ he, p, h1, h2, hc.trans h3⟩
      cases in_step (hx.wf .init) hst with
      | keep _ _ hc => exact keep (by rw [hc]; exact .refl)
      | takeOver _ _ _ _ hc => exact keep (by rw [hc]; exact .refl)
      | locally p hop _ hc =>
        exact .inl ⟨p, .inr ⟨_, List.mem_cons_self, .inl ⟨_, hop⟩⟩, hc⟩
      | slaveHeard p hh hi _ _ hc =>
        exact .inr ⟨_, List.mem_cons_self, p, hh, hi, by rw [hc]; exact .refl⟩
      | masterHeard p hh hi _ _ hc =>
        exact .inr ⟨_, List.mem_cons_self, p, hh, hi, by rw [hc]; exact .refl⟩
      | change q hf => exact .inl ⟨q, .inr ⟨_, List.mem_cons_self, .inr hf⟩, hf.adopted⟩
      | repeats q hf => exact keep hf.kept
  rcases key with ⟨a, ha, hc⟩ | ⟨e, he, p, hp, hi, hc⟩
  · refine ⟨i, .inl rfl, a, ha, hc.1, fun k hk _ => ?_⟩
    show (net.node i).setEffectPacket.data[k] = _
    rw [show (net.node i).setEffectPacket.data = a.data from hc.2.2]
  · obtain ⟨j, hj, e', he', q, hq, hn, h1, _, h3⟩ := hw_hears_neighbours_only hr he hp
    obtain ⟨t₀, rand, ju, ju', xj⟩ := inv.exec j
    have hiq : IsInstruction q := by
      rcases hi with h | h
      · exact .inl (h3.1 ▸ h)
      · exact .inr (h3.1 ▸ h)
    obtain ⟨a, ha, hqa⟩ := composed_instruction rfl xj (inv.deaf j) he' hn hq hiq (by
      intro h; rw [h] at h1; exact absurd h1 (by decide))
    refine ⟨j, .inr hj, a, ha, ?_, ?_⟩
    · exact hc.1.trans (h3.1.trans hqa.1)
    · intro k hk hka
      have h4 : (net.node i).setEffectPacket.data[k] = p.data[k] := by
        rw [show (net.node i).setEffectPacket.data = p.data from hc.2.2]
      have h5 := h3.2 k hk (by rw [hqa.2.1]; exact hka)
      have h6 : q.data[k] = a.data[k] := by rw [hqa.2.2]
      exact h4.trans (h5.trans h6)

/-! ## C99: on the hardware a master never learns that it lost an election -/

/-- C99: in every such network no device ever hears a claim. -/
theorem hw_claim_never_heard {n nbrs} {net : HwNet n} (hr : HwNet.Reach nbrs net)
    {i : Fin n} {e : Entry} (he : e ∈ net.hist i) {p : Packet} (hp : Entry.heard e = some p) :
    p.type ≠ .claimMaster := by
  intro ht
  obtain ⟨j, _, e', he', q, hq, hn, h1, _, h3⟩ := hw_hears_neighbours_only hr he hp
  have inv := hwInv_reach hr
  obtain ⟨t₀, rand, ju, ju', x⟩ := inv.exec j
  obtain ⟨h', x', wf, hst, hsub⟩ := exec_entry x .init he'
  have hprop : ProperUse h' := fun e he => inv.proper j e (hsub e he)
  have hinst := Run.instruction ⟨_, _, _, x'⟩ hprop
  rcases transmitted_claim wf hinst (fun now p ho => inv.proper j e' he' now p ho) hst hq
    (h3.1 ▸ ht) with h | h
  · rw [hn] at h; cases h
  · rw [h] at h1; exact absurd h1 (by decide)

/-- C99: so a master becomes slave exactly when it hears a heartbeat whose id is at least the
number it draws; that another master has drawn a larger number does not matter. -/
theorem hw_demoted_only_by_heartbeat {n nbrs} {net : HwNet n} (hr : HwNet.Reach nbrs net)
    {i : Fin n} {e : Entry} (he : e ∈ net.hist i) (hm : e.pre.getCurrentState = .master) :
    e.post.getCurrentState = .slave ↔ ∃ p, Entry.heard e = some p ∧ p.type = .heartbeat ∧
      ∃ m r', randomRange .arduino 1 0xFFFF e.pre.rand = .ok (m, r') ∧ m ≤ p.id := by
  have inv := hwInv_reach hr
  obtain ⟨t₀, rand, ju, ju', x⟩ := inv.exec i
  obtain ⟨h', x', wf, hst, _⟩ := exec_entry x .init he
  have r : Firefly.Run .arduino t₀ h' e.pre := ⟨_, _, _, x'⟩
  obtain ⟨pre, op, post⟩ := e
  cases op with
  | radioTick now rx =>
    rw [demoted_iff r hm hst]
    constructor
    · rintro ⟨p, hh, h⟩
      have hd := hh.delivered wf
      have hp : Entry.heard ⟨pre, .radioTick now rx, post⟩ = some p := by rw [heard_tick wf, hd]
      exact ⟨p, hp, h.resolve_left (hw_claim_never_heard hr he hp)⟩
    · rintro ⟨p, hp, h⟩
      rw [heard_tick wf] at hp
      exact ⟨p, hears_of_delivered wf hp, .inr h⟩
  | _ =>
    constructor
    · intro hs
      have hne : (Node.getCurrentState post) ≠ pre.getCurrentState := by
        rw [hs, hm]; decide
      obtain ⟨now, rx, h⟩ := role_changes_in_ticks_only r hst hne
      cases h
    · rintro ⟨p, hp, _⟩; cases hp

/-- C99: and two masters in reach of each other need not resolve.  For every `N` up to 2000000 (46
days at one heartbeat every two seconds, just below the wrap-around of the clock) two devices that
hear every heartbeat of each other can both be masters after each has heard `N` heartbeats of the
other, neither ever having been demoted; on every device the clock never goes back. -/
theorem hw_two_masters_forever (N : Nat) (hN : N ≤ 2000000) :
    ∃ (nbrs : Fin 2 → List (Fin 2)) (net : HwNet 2), 1 ∈ nbrs 0 ∧ 0 ∈ nbrs 1 ∧
      HwNet.Reach nbrs net ∧ ∀ i, (net.node i).getCurrentState = .master ∧
        ((heardIn (net.hist i)).filter (·.type = .heartbeat)).length = N ∧
        (∀ e ∈ net.hist i, ¬ Entry.Demoted e) ∧ Clock 0 (net.hist i) := by
  obtain ⟨net, hr, h⟩ := TwoMasters.rounds N hN
  refine ⟨TwoMasters.nbrs, net, by decide, by decide, hr, fun i => ?_⟩
  have d := (h i).1
  refine ⟨d.master, d.heard, d.kept, d.sorted, fun t ht => ?_⟩
  have := d.early t ht
  rw [BitVec.le_def, TwoMasters.time_toNat hN] at this
  omega

namespace HwDemo

/-- Three devices in a row. -/
def nbrs : Fin 3 → List (Fin 3)
  | 0 => [1]
  | 1 => [0, 2]
  | 2 => [1]

def junk : PType × Vector U8 58 := (.heartbeat, Vector.replicate 58 0)

/-- Freshly powered. -/
def net₀ : HwNet 3 where
  node i := Node.init 0 (fun n => if n = 2 ∧ i = 1 then 0 else 10 * n + i) junk junk
  hist _ := []
  air := []

/-- Effect 7 with palette 4 for 20 seconds. -/
def instruction : Packet := Packet.writeSetEffect ⟨0, .heartbeat, 0, Vector.replicate 58 0⟩ 7 20 4

/-- One device takes a step. -/
def act (net : HwNet 3) (i : Fin 3) (op : Op) : Option (HwNet 3) :=
  match op.step .arduino (net.node i) with
  | .error _ => none
  | .ok s' =>
    match Board.frames (net.node i) s' with
    | .error _ => none
    | .ok fs => some
        { node := fun k => if k = i then s' else net.node k
          hist := fun k => if k = i then ⟨net.node i, op, s'⟩ :: net.hist i else net.hist k
          air := fs.map (i, ·) ++ net.air }

theorem act_reach {net net' : HwNet 3} {i op} (hr : HwNet.Reach nbrs net)
    (h : act net i op = some net')
    (hrx : ∀ now rx, op = .radioTick now rx → HwNet.CanRead nbrs net i now rx)
    (hproper : ∀ now p, op = .setEffect now p → p.type = .setEffect ∨ p.type = .setControl) :
    HwNet.Reach nbrs net' := by
  unfold act at h
  split at h
  · cases h
  · rename_i s' hst
    split at h
    · cases h
    · rename_i fs hfs
      cases h
      exact .step hr (.act i op hrx hproper hst hfs)

/-- Device `i` reads frame `k` of the air at `now`. -/
def readOp (net : HwNet 3) (now : U32) (k : Nat) : Op :=
  .radioTick now (match (net.air[k]?).map (·.2) with
    | none => none
    | some f => match Board.Listen.packet ⟨now, some f, junk⟩ with
      | .ok rx => rx
      | .error _ => none)

/-- Device 0 is told to show effect 7. -/
def net₁ : HwNet 3 := (act net₀ 0 (.setEffect 1000 instruction)).getD net₀
/-- Device 1 reads the frame. -/
def net₂ : HwNet 3 := (act net₁ 1 (readOp net₁ 1001 0)).getD net₀
/-- Device 2 reads what device 1 relayed. -/
def net₃ : HwNet 3 := (act net₂ 2 (readOp net₂ 1002 0)).getD net₀

/-- Device 0 takes over, and device 1 before it hears of that. -/
def net₄ : HwNet 3 := (act net₀ 0 (.radioTick 8000 none)).getD net₀
def net₅ : HwNet 3 := (act net₄ 1 (.radioTick 8000 none)).getD net₀
/-- Device 0 reads the heartbeat of device 1, and device 1 that of device 0. -/
def net₆ : HwNet 3 := (act net₅ 0 (readOp net₅ 8001 0)).getD net₀
def net₇ : HwNet 3 := (act net₆ 1 (readOp net₆ 8001 3)).getD net₀

theorem some_getD {α} {o : Option α} {d : α} (h : o.isSome = true) : o = some (o.getD d) := by
  cases o with
  | none => cases h
  | some a => rfl

theorem reads {net : HwNet 3} {i now k} {j : Fin 3} {f} (hk : net.air[k]? = some (j, f))
    (hj : i ∈ nbrs j) {now' rx} (h : readOp net now k = .radioTick now' rx)
    (hok : (Board.Listen.packet ⟨now, some f, junk⟩).isOk = true) :
    HwNet.CanRead nbrs net i now' rx := by
  unfold readOp at h
  rw [hk] at h
  cases h
  refine ⟨⟨now, some f, junk⟩, rfl, ?_, ?_⟩
  · simp only [Option.map_some]
    cases hp : Board.Listen.packet ⟨now, some f, junk⟩ with
    | error e => rw [hp] at hok; cases hok
    | ok rx => rfl
  · rintro _ ⟨⟩
    exact ⟨j, hj, List.mem_of_getElem? hk⟩

theorem reach₀ : HwNet.Reach nbrs net₀ := .boot ⟨fun _ => ⟨_, _, _, _, rfl⟩, fun _ => rfl, rfl⟩

theorem reach₁ : HwNet.Reach nbrs net₁ :=
  act_reach reach₀ (some_getD (by decide +kernel)) (by rintro _ _ ⟨⟩) (by rintro _ _ ⟨⟩; exact .inl rfl)

theorem reach₂ : HwNet.Reach nbrs net₂ :=
  act_reach reach₁ (some_getD (by decide +kernel))
    (fun _ _ h => reads (k := 0) (j := 0) (f := [0, 12, 2, 7, 20, 4]) (by decide +kernel)
      (by decide) h (by decide +kernel)) (by rintro _ _ ⟨⟩)

theorem reach₃ : HwNet.Reach nbrs net₃ :=
  act_reach reach₂ (some_getD (by decide +kernel))
    (fun _ _ h => reads (k := 0) (j := 1) (f := [0, 12, 2]) (by decide +kernel) (by decide) h
      (by decide +kernel)) (by rintro _ _ ⟨⟩)

theorem quiet {net : HwNet 3} {i t now rx} (h : Op.radioTick t none = .radioTick now rx) :
    HwNet.CanRead nbrs net i now rx := by
  cases h
  exact ⟨⟨t, none, junk⟩, rfl, rfl, nofun⟩

theorem reach₅ : HwNet.Reach nbrs net₅ :=
  act_reach (act_reach reach₀ (net' := net₄) (some_getD (by decide +kernel)) (fun _ _ h => quiet h)
    (by rintro _ _ ⟨⟩)) (some_getD (by decide +kernel)) (fun _ _ h => quiet h) (by rintro _ _ ⟨⟩)

theorem reach₇ : HwNet.Reach nbrs net₇ :=
  act_reach (act_reach reach₅ (net' := net₆) (some_getD (by decide +kernel))
    (fun _ _ h => reads (k := 0) (j := 1) (f := [0, 13, 0, 0, 0, 31, 64]) (by decide +kernel)
      (by decide) h (by decide +kernel)) (by rintro _ _ ⟨⟩)) (some_getD (by decide +kernel))
    (fun _ _ h => reads (k := 3) (j := 0) (f := [0, 12, 0, 0, 0, 31, 64]) (by decide +kernel)
      (by decide) h (by decide +kernel)) (by rintro _ _ ⟨⟩)

end HwDemo

open HwDemo in
/-- The hypotheses of `hw_instruction_one_hop` are met, and it matters: of three devices in a row
the first is given an instruction, the second takes it over, and the third, which reads what the
second relayed, keeps its own. -/
example : HwNet.Reach nbrs net₃ ∧ (net₃.node 0).getSetEffect.data[0] = 7 ∧
    (net₃.node 1).getSetEffect.data[0] = 7 ∧ (net₃.node 2).getSetEffect.data[0] = 1 ∧
    (net₃.hist 2).length = 1 :=
  ⟨reach₃, by decide +kernel⟩

open HwDemo in
/-- The hypotheses of `hw_hears_neighbours_only`, `hw_claim_never_heard` and
`hw_demoted_only_by_heartbeat` are met: two masters hear each other's heartbeats; device 0 remains
master, device 1 is demoted. -/
example : HwNet.Reach nbrs net₇ ∧
    ((net₇.hist 0).head?.map fun e => (e.pre.state, e.post.state, (Entry.heard e).map (·.type))) =
      some (.master, .master, some .heartbeat) ∧
    ((net₇.hist 1).head?.map fun e => (e.pre.state, e.post.state, (Entry.heard e).map (·.type))) =
      some (.master, .slave, some .heartbeat) :=
  ⟨reach₇, by decide +kernel⟩

end Firefly.Props
