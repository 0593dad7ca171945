import Verif.Lemmas.Fakes
import Verif.Props.Frame
import Verif.Props.Startup

/-! # The doubles for host programs (C131, C132) -/

namespace Firefly.Props
open Spec

/-! ## C131: the radio -/

/-- C131.  Staging a packet, whatever its length field says, writes inside of its payload only. -/
theorem fake_radio_in_bounds (p : Packet) : ∀ i ∈ FakeRadio.clearedCells p, i < 58 := by
  intro i hi
  rw [FakeRadio.clearedCells, List.mem_range'_1] at hi
  unfold packetDataLength at hi
  omega

/-- A packet with a length of 200 is not touched, one with a length of 57 in one cell. -/
example : FakeRadio.clearedCells ⟨7, .setEffect, 200, Vector.replicate 58 1⟩ = [] ∧
    FakeRadio.clearedCells ⟨7, .setEffect, 57, Vector.replicate 58 1⟩ = [57] := by decide

/-- C131: what a program reads from the test radio.  After a packet was staged it reads that packet
with the unused part of the payload cleared, every time, until another one is staged; a packet
that the test rewrote in place it reads as it was rewritten; after the packet was withdrawn, or
before any was staged, it reads nothing. -/
theorem fake_radio_receives (before mid after : List FakeRadio.Call) (hafter : NothingStaged after) :
    (∀ p, ∃ q, (FakeRadio.after (before ++ .stage (some p) :: after)).readPacket = some q ∧
      Tidied p q) ∧
    (∀ p q, NothingStaged mid →
      (FakeRadio.after (before ++ .stage (some p) :: mid ++ .rewrite q :: after)).readPacket =
        some q) ∧
    (FakeRadio.after (before ++ .stage none :: after)).readPacket = none ∧
    ((∀ p, .stage (some p) ∉ before) → (FakeRadio.after before).readPacket = none) := by
  refine ⟨fun p => ⟨FakeRadio.clearTail p, ?_, FakeRadio.clearTail_tidied p⟩, fun p q hm => ?_, ?_,
    fun h => FakeRadio.none_received h rfl⟩
  · unfold FakeRadio.after FakeRadio.readPacket
    rw [List.foldl_append, List.foldl_cons, FakeRadio.received_kept hafter]; rfl
  · unfold FakeRadio.after FakeRadio.readPacket
    rw [List.foldl_append, List.foldl_cons, FakeRadio.received_kept hafter]
    show Option.map _ _ = _
    rw [List.foldl_append, List.foldl_cons, FakeRadio.received_kept hm]; rfl
  · unfold FakeRadio.after FakeRadio.readPacket
    rw [List.foldl_append, List.foldl_cons, FakeRadio.received_kept hafter]; rfl

/-- C131: what a test collects from the radio: the last packet transmitted since it last collected
one, and nothing if there was none. -/
theorem fake_radio_sends (before after : List FakeRadio.Call) (hafter : NothingSent after) :
    (∀ p, .collect ∉ after →
      (FakeRadio.after (before ++ .send p :: after)).getSentPacket.1 = some p) ∧
    (FakeRadio.after (before ++ .collect :: after)).getSentPacket.1 = none ∧
    (FakeRadio.after after).getSentPacket.1 = none := by
  refine ⟨fun p hc => ?_, ?_, FakeRadio.none_sent hafter rfl⟩
  · unfold FakeRadio.after FakeRadio.getSentPacket
    rw [List.foldl_append, List.foldl_cons]
    exact (FakeRadio.sent_kept hafter hc _).trans rfl
  · unfold FakeRadio.after FakeRadio.getSentPacket
    rw [List.foldl_append, List.foldl_cons]
    exact FakeRadio.none_sent hafter rfl

/-- A packet with four bytes of payload of which the length admits three. -/
def Fakes.packet : Packet :=
  ⟨9, .setEffect, 3, (((((Vector.replicate 58 (0 : U8)).set 0 6).set 1 20).set 2 1).set 3 255)⟩

/-- A concrete case of both. -/
example :
    ((FakeRadio.after [.stage (some Fakes.packet), .read, .send Fakes.packet, .read]).readPacket.map
      fun q => (q.id, q.len, q.data[0], q.data[2], q.data[3])) = some (9, 3, 6, 1, 0) ∧
    (FakeRadio.after [.stage (some Fakes.packet), .read, .send Fakes.packet, .read]).getSentPacket.1
      = some Fakes.packet ∧
    (FakeRadio.after [.stage (some Fakes.packet), .send Fakes.packet, .collect, .read]).getSentPacket.1
      = none := by decide +kernel

/-! ## C131: a state machine on this radio -/

theorem fake_step {d d' : FakeDevice} {c l} (h : FakeDevice.after d (c :: l) = .ok d') :
    ∃ d₁, d.step c = .ok d₁ ∧ d₁.after l = .ok d' := by
  unfold FakeDevice.after at h
  rw [List.foldlM_cons] at h
  simp only [bind, Except.bind] at h
  split at h
  · cases h
  · rename_i d₁ h1; exact ⟨d₁, h1, h⟩

theorem fake_exec {s₀ h calls} {d d' : FakeDevice} (x : Exec .host s₀ h d.node) (wf : d.node.WF)
    (hs : d.after calls = .ok d') :
    ∃ h', Exec .host s₀ (h' ++ h) d'.node ∧ ∃ l, d'.node.sent = d.node.sent ++ l ∧
      (.collect ∉ calls → d'.radio.sent = l.getLast?.or d.radio.sent) := by
  induction calls generalizing d h with
  | nil => cases hs; exact ⟨[], x, [], by simp, fun _ => rfl⟩
  | cons c calls ih =>
    obtain ⟨d₁, h1, h2⟩ := fake_step hs
    obtain ⟨h', x', l, hl, hr⟩ := FakeDevice.step_exec x wf h1
    have wf' : d₁.node.WF := by
      cases c with
      | stage p | collect => cases h1; exact wf
      | tick | setEffect | setNumPalettes | setNumEffects =>
        obtain ⟨h'', x'', _⟩ := FakeDevice.step_exec (.nil : Exec .host d.node [] d.node) wf h1
        exact x''.wf wf
    obtain ⟨h₂, x₂, l₂, hl₂, hr₂⟩ := ih x' wf' h2
    refine ⟨h₂ ++ h', by rw [List.append_assoc]; exact x₂, l ++ l₂, by
      rw [hl₂, hl, List.append_assoc], fun hc => ?_⟩
    rw [hr₂ (fun hh => hc (.tail _ hh)), hr (fun e => hc (e ▸ .head _)), List.getLast?_append]
    cases l₂.getLast? <;> rfl

/-- C131: a state machine on the test radio goes through a run of a device like any other. -/
theorem fake_device_runs {t₀ rand junk junk' calls d}
    (h : (FakeDevice.init t₀ rand junk junk').after calls = .ok d) :
    ∃ hist, Firefly.Run .host t₀ hist d.node := by
  obtain ⟨h', x, _⟩ := fake_exec (d := FakeDevice.init t₀ rand junk junk') .nil Node.WF.init h
  exact ⟨_, rand, junk, junk', x⟩

/-- C131: in a `Tick` the state machine hears the staged packet in each of its radio ticks, first at
`now₁`, then at `now₂`. -/
theorem fake_tick_hears {d d' : FakeDevice} {now₁ now₂} (h : d.step (.tick now₁ now₂) = .ok d') :
    ∃ hist, Exec .host d.node hist d'.node ∧
      (hist.reverse.map (·.op) = [.radioTick now₁ d.radio.readPacket, .endTick now₁] ∨
       hist.reverse.map (·.op) = [.radioTick now₁ d.radio.readPacket,
          .radioTick now₂ d.radio.readPacket, .endTick now₂]) := by
  simp only [FakeDevice.step, bind, Except.bind, pure, Except.pure] at h
  split at h
  · cases h
  · rename_i node he
    cases h
    obtain ⟨s₁, h1, ⟨_, h2⟩ | ⟨_, s₂, h2, h3⟩⟩ := Node.tick_eq_ops.1 he
    · exact ⟨_, .cons _ (.cons _ .nil h1) h2, .inl rfl⟩
    · exact ⟨_, .cons _ (.cons _ (.cons _ .nil h1) h2) h3, .inr rfl⟩

/-- C131: after the test has collected a packet, the next it collects is the last of those the state
machine has transmitted since, if any. -/
theorem fake_device_collects {t₀ rand junk junk' before after d₀ d}
    (hb : (FakeDevice.init t₀ rand junk junk').after before = .ok d₀)
    (ha : d₀.after (.collect :: after) = .ok d) (hc : .collect ∉ after) :
    d.radio.getSentPacket.1 = (d.node.sent.drop d₀.node.sent.length).getLast? := by
  obtain ⟨h', r⟩ := fake_device_runs hb
  obtain ⟨d₁, h1, h2⟩ := fake_step ha
  cases h1
  obtain ⟨_, _, l, hl, hr⟩ := fake_exec (d := { d₀ with radio := d₀.radio.getSentPacket.2 })
    (.nil : Exec .host d₀.node [] d₀.node) r.wf h2
  show d.radio.sent = _
  rw [hr hc, hl, List.drop_left]
  show _ = _
  simp [FakeRadio.getSentPacket]

/-- C131: the state machine takes what is staged for new exactly if its number is not among those of
the last five packets the state machine transmitted. -/
theorem fake_takes_staged {t₀ rand junk junk' calls d p}
    (h : (FakeDevice.init t₀ rand junk junk').after calls = .ok d)
    (hp : d.radio.readPacket = some p) :
    Hears d.node d.radio.readPacket p ↔ p.id ∉ lastFive (d.node.sent.map (·.id)).reverse := by
  obtain ⟨h', r⟩ := fake_device_runs h
  rw [hp]
  exact takes_for_new r p

/-- C131: a packet left staged is taken up once: after a `Tick` took it up, it is ignored until the
state machine has transmitted five more packets. -/
theorem fake_staged_once {t₀ rand junk junk' before after now₁ now₂ d₀ d p}
    (hb : (FakeDevice.init t₀ rand junk junk').after before = .ok d₀)
    (hp : Hears d₀.node d₀.radio.readPacket p)
    (ha : d₀.after (.tick now₁ now₂ :: after) = .ok d)
    (hn : d.node.sent.length ≤ d₀.node.sent.length + 5) : ¬ Hears d.node (some p) p := by
  obtain ⟨h₀, r₀⟩ := fake_device_runs hb
  obtain ⟨_, _, _, x₀⟩ := r₀
  have r₀ : Firefly.Run .host t₀ h₀ d₀.node := ⟨_, _, _, x₀⟩
  have wf := r₀.wf
  obtain ⟨d₁, h1, h2⟩ := fake_step ha
  obtain ⟨h', x, _⟩ := fake_exec x₀ wf ha
  have r : Firefly.Run .host t₀ (h' ++ h₀) d.node := ⟨_, _, _, x⟩
  rw [takes_for_new r]
  have key : ∃ l, d.node.sent = d₀.node.sent ++ p :: l := by
    simp only [FakeDevice.step, bind, Except.bind, pure, Except.pure] at h1
    split at h1
    · cases h1
    · rename_i node he
      cases h1
      have hd := hp.delivered wf
      obtain ⟨s₁, e1, rest⟩ := Node.tick_eq_ops.1 he
      obtain ⟨l, hl⟩ := (Node.radioTick_cases wf e1).relays hd
      have hl' : ∃ l', node.sent = s₁.sent ++ l' := by
        rcases rest with ⟨_, e2⟩ | ⟨_, s₂, e2, e3⟩
        · cases e2; exact ⟨[], by simp⟩
        · cases e3
          obtain ⟨l', hl', _⟩ := Node.step_grows (Node.step_wf wf e1) e2
          exact ⟨l', hl'⟩
      obtain ⟨l', hl'⟩ := hl'
      have wf' : node.WF := by
        obtain ⟨_, x', _⟩ := Exec.tick (.nil : Exec .host d₀.node [] d₀.node) he
        exact x'.wf wf
      obtain ⟨_, _, l₂, hl₂, _⟩ := fake_exec
        (d := ⟨FakeDevice.handOver d₀.radio d₀.node node, node⟩)
        (.nil : Exec .host node [] node) wf' h2
      refine ⟨l ++ l' ++ l₂, ?_⟩
      rw [hl₂]
      show node.sent ++ l₂ = _
      rw [hl', hl]; simp
  obtain ⟨l, hl⟩ := key
  rw [hl] at hn ⊢
  simp only [List.length_append, List.length_cons] at hn
  intro hnot
  apply hnot
  unfold lastFive
  have : (List.map (fun x => x.id) (d₀.node.sent ++ p :: l)).reverse ++ List.replicate 5 0 =
      ((l.map (·.id)).reverse ++ [p.id]) ++
        ((d₀.node.sent.map (·.id)).reverse ++ List.replicate 5 0) := by simp
  rw [this, List.take_append, List.take_of_length_le (by simp; omega)]
  simp

/-- A device that draws the numbers 2, 3, 4 and so on. -/
def Fakes.start : FakeDevice :=
  .init 0 (fun n => n) (.heartbeat, Vector.replicate 58 0) (.heartbeat, Vector.replicate 58 0)

/-- The calls of a test that stages a packet, lets the device tick, and has it announce an effect
`n` times. -/
def Fakes.calls (n : Nat) : List FakeDevice.Call :=
  .stage (some Fakes.packet) :: .tick 10 10 :: List.replicate n (.setEffect 20 Fakes.packet)

/-- C131, the exception: the packet is not removed when it is read, so after five more transmissions
the state machine takes it up again. -/
theorem fake_staged_again :
    ∃ d₀ d, Fakes.start.after (Fakes.calls 0) = .ok d₀ ∧
      d₀.after (List.replicate 5 (.setEffect 20 Fakes.packet)) = .ok d ∧
      d₀.node.sent.map (·.id) = [9] ∧ d₀.radio.readPacket = d.radio.readPacket ∧
      (∃ p, d.radio.readPacket = some p ∧ p.id = 9 ∧ Hears d.node (some p) p) := by
  have c : (((Fakes.start.after (Fakes.calls 0)).toOption.bind fun d₀ =>
      (d₀.after (List.replicate 5 (.setEffect 20 Fakes.packet))).toOption.bind fun d =>
      d.radio.readPacket.map fun p => (decide (d₀.node.sent.map (·.id) = [9]) &&
        decide (d₀.radio.readPacket = d.radio.readPacket) && decide (p.id = 9) &&
        decide (p.id ∉ lastFive (d.node.sent.map (·.id)).reverse)))) = some true := by
    decide +kernel
  obtain ⟨d₀, h₀, c⟩ := Option.bind_eq_some_iff.1 c
  obtain ⟨d, h, c⟩ := Option.bind_eq_some_iff.1 c
  obtain ⟨p, hp, c⟩ := Option.map_eq_some_iff.1 c
  have ok : ∀ {x : Except Fault FakeDevice} {d}, x.toOption = some d → x = .ok d := by
    intro x d e
    cases x with
    | error _ => cases e
    | ok _ => cases e; rfl
  have h₀ := ok h₀
  have h := ok h
  simp only [Bool.and_eq_true, decide_eq_true_eq] at c
  refine ⟨d₀, d, h₀, h, c.1.1.1, c.1.1.2, p, hp, c.1.2, ?_⟩
  have hall : Fakes.start.after (Fakes.calls 0 ++
      List.replicate 5 (.setEffect 20 Fakes.packet)) = .ok d := by
    unfold FakeDevice.after at h h₀ ⊢
    rw [List.foldlM_append, h₀]
    exact h
  obtain ⟨_, r⟩ := fake_device_runs hall
  exact (takes_for_new r p).2 c.2

/-- A concrete case of `fake_staged_once` and `fake_device_collects`: four more transmissions. -/
example : ((Fakes.start.after (Fakes.calls 4)).toOption.map fun d =>
    (d.node.sent.map (·.id), d.radio.getSentPacket.1.map (·.id),
      decide (9 ∈ lastFive (d.node.sent.map (·.id)).reverse))) =
    some ([9, 3, 4, 5, 6], some 6, true) := by decide +kernel

/-! ## C132: the LEDs -/

/-- C132: after a frame a test reads from the double exactly the colour each LED shows; asking for
an LED the device does not have aborts. -/
theorem fake_leds_read (fr : Frame) (d : Device) (rng : U16) (hsmall : totalLeds d ≤ 255)
    (hdef : ∀ k (hk : k < (ledsInOrder d).length), ∃ c,
      Shows fr (ledsInOrder d)[k].1 (ledsInOrder d)[k].2 (fr.now k) c) :
    ∃ leds, runEffect fr (FakeLedManager.setLed .host d) id d (FakeLedManager.newLeds d) rng =
        .ok leds ∧
      (∀ k (hk : k < (ledsInOrder d).length), ∃ c,
        FakeLedManager.getLed .host d leds (BitVec.ofNat 8 k) = .ok c ∧
          Shows fr (ledsInOrder d)[k].1 (ledsInOrder d)[k].2 (fr.now k) c) ∧
      (∀ i : U8, totalLeds d ≤ i.toNat →
        FakeLedManager.getLed .host d leds i = .error .assertFail) := by
  obtain ⟨leds, h1, h2⟩ := (fake_frame_stays_in_buffer fr d rng hdef).1 hsmall
  have hlen := ledsInOrder_length d
  have hcount := ledCount_toNat d
  refine ⟨leds, h1, fun k hk => ?_, fun i hi => ?_⟩
  · obtain ⟨c, hc, hs⟩ := h2 k hk
    refine ⟨c, ?_, hs⟩
    have e : (BitVec.ofNat 8 k : U8).toNat = k := by
      rw [BitVec.toNat_ofNat, Nat.mod_eq_of_lt (by omega)]
    have hlt : (BitVec.ofNat 8 k : U8) < d.getLedCount := by rw [BitVec.lt_def, e]; omega
    simp [FakeLedManager.getLed, hostAssert, hlt, bind, Except.bind, vecGet, e, hc]
    all_goals rfl
  · have hlt : ¬ i < d.getLedCount := by rw [BitVec.lt_def]; omega
    simp [FakeLedManager.getLed, hostAssert, hlt, bind, Except.bind]

theorem fill_loop (c : CRGB) (n : Nat) (leds : List CRGB) (h : n ≤ leds.length) :
    (List.range n).foldlM (fun (leds : List CRGB) i =>
      if i < leds.length then (pure (leds.set i c) : Except Fault (List CRGB))
      else .error .outOfBounds) leds = .ok (List.replicate n c ++ leds.drop n) := by
  induction n with
  | zero => simp; rfl
  | succ n ih =>
    rw [List.range_succ, List.foldlM_append, ih (by omega)]
    have : n < (List.replicate n c ++ leds.drop n).length := by simp; omega
    simp only [bind, Except.bind, List.foldlM_cons, List.foldlM_nil, this, if_true, pure,
      Except.pure]
    congr 1
    rw [List.set_append_right _ _ (by simp), List.length_replicate, Nat.sub_self,
      List.drop_eq_getElem_cons (by omega : n < leds.length), List.set_cons_zero,
      List.replicate_succ', List.append_assoc]
    rfl

/-- C132: setting the global colour colours every LED of the device. -/
theorem fake_global_colour (d : Device) (leds : List CRGB) (c : CRGB) (hsmall : totalLeds d ≤ 255)
    (hl : leds.length = totalLeds d) :
    ∃ leds', FakeLedManager.setGlobalColor d leds c = .ok leds' ∧ leds'.length = totalLeds d ∧
      ∀ i : U8, i.toNat < totalLeds d → FakeLedManager.getLed .host d leds' i = .ok c := by
  have hcount := ledCount_toNat d
  refine ⟨_, fill_loop c _ leds (by omega), ?_, fun i hi => ?_⟩
  · simp; omega
  · have hlt : i < d.getLedCount := by rw [BitVec.lt_def]; omega
    have e : (List.replicate d.getLedCount.toNat c ++ leds.drop d.getLedCount.toNat)[i.toNat]? =
        some c := by
      rw [List.getElem?_append_left (by simp; omega)]
      rw [List.getElem?_replicate, if_pos (by omega)]
    simp [FakeLedManager.getLed, hostAssert, hlt, bind, Except.bind, vecGet, e]
    all_goals rfl

/-- A concrete case: a device of six LEDs. -/
example : totalLeds exampleDevice ≤ 255 ∧
    (FakeLedManager.newLeds exampleDevice).length = totalLeds exampleDevice := by decide

/-- C132: clearing the effects of the double deletes each effect registered before exactly once, and
leaves a double on which only the effects registered afterwards are found. -/
theorem fake_clear_effects (plat : Platform) (l l' : List (α × U8))
    (hs : (allSlots l).length ≤ 255) :
    ∃ r freed r', Registry.empty.addAll plat l = .ok r ∧
      FakeLedManager.clearEffects r = .ok (freed, r') ∧ freed.Perm (l.map (·.1)) ∧
      r'.getNumEffects = 0 ∧ r'.getNumUniqueEffects = 0 ∧
      r'.addAll plat l' = Registry.empty.addAll plat l' := by
  obtain ⟨r, freed, h1, h2, h3⟩ := destructor_frees_once plat l hs
  refine ⟨r, freed, .empty, h1, ?_, h3, rfl, rfl, rfl⟩
  simp [FakeLedManager.clearEffects, h2, bind, Except.bind, pure, Except.pure]

end Firefly.Props
