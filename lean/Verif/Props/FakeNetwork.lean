import Verif.Lemmas.FakeNetwork
import Verif.Props.Fakes

/-! # The network of the integration tests (C135, C136) -/

namespace Firefly.Props
open Spec

/-! ## C135: what a `Tick` of the network does -/

/-- C135: in a `Tick` every device runs its own, hearing the packet the network took last with the
unused part of the payload cleared, unless that packet is lost for it: this needs packet loss, and a
random number divisible by it.  Then the network takes at most one packet: that of the first device
in whose radio one waits.  In each radio only the last packet transmitted waits. -/
theorem network_tick {n} {net net' : FakeNet n} {draws} (h : net.tick draws = .ok net') :
    ∃ rx, Round net net' rx ∧ ∀ i,
      ((net.loss ≠ 0 ∧ net.loss ∣ (draws i : Int)) → rx i = none) ∧
      (¬ (net.loss ≠ 0 ∧ net.loss ∣ (draws i : Int)) →
        (net.packet = none ∧ rx i = none ∨
          ∃ p q, net.packet = some p ∧ rx i = some q ∧ Tidied p q)) := by
  refine ⟨_, FakeNet.tick_round h, fun i => ?_⟩
  have hh : FakeNet.heard net.loss (draws i) = true ↔
      ¬ (net.loss ≠ 0 ∧ net.loss ∣ (draws i : Int)) := by
    unfold FakeNet.heard
    rw [Int.dvd_iff_emod_eq_zero]
    simp
    grind
  unfold FakeNet.staged
  refine ⟨fun hl => ?_, fun hl => ?_⟩
  · rw [if_neg (fun e => hh.1 e hl)]; rfl
  · rw [if_pos (hh.2 hl)]
    cases hp : net.packet with
    | none => exact .inl ⟨rfl, rfl⟩
    | some p => exact .inr ⟨p, _, rfl, rfl, FakeRadio.clearTail_tidied p⟩

/-- C135: every packet a device hears was transmitted by a device: what the network takes in a
`Tick` was sent in this one, or had been waiting in a radio. -/
theorem network_heard_was_sent {n} {net net' : FakeNet n} {draws p}
    (h : net.tick draws = .ok net') (hp : net'.packet = some p) :
    ∃ k, p ∈ (net'.node k).sent.drop (net.node k).sent.length ∨ (net.radio k).sent = some p := by
  rcases (FakeNet.tick_round h).taken with ⟨_, e, _⟩ | ⟨k, q, _, hw, e, _⟩
  · rw [hp] at e; cases e
  · rw [hp] at e; cases e
    refine ⟨k, ?_⟩
    unfold Waiting at hw
    cases hl : ((net'.node k).sent.drop (net.node k).sent.length).getLast? with
    | none => rw [hl] at hw; exact .inr hw
    | some q =>
      rw [hl] at hw; cases hw
      exact .inl (List.mem_of_getLast? hl)

/-! ## A network of two -/

namespace FakeNetwork

/-- Contents of uninitialised packets. -/
def junk : PType × Vector U8 58 := (.heartbeat, Vector.replicate 58 0)

/-- A network of two devices that draw random numbers from `r`. -/
def two (r : Fin 2 → Rand) : Except Fault (FakeNet 2) := do
  let a ← FakeNet.boot 1 (r 0) junk junk ⟨0, 0, 0⟩
  let b ← FakeNet.boot 2 (r 1) junk junk ⟨0, 0, 0⟩
  return { now := 2, radio := fun i => if i = 0 then a.radio else b.radio,
           node := fun i => if i = 0 then a.node else b.node, packet := none, loss := 0 }

/-- It is one that the constructor makes. -/
theorem two_booted {r net} (h : two r = .ok net) : net.Booted := by
  unfold two at h
  obtain ⟨a, ha, h⟩ := Node.bind_ok h
  obtain ⟨b, hb, h⟩ := Node.bind_ok h
  cases h
  refine ⟨rfl, fun i => ?_, rfl, rfl⟩
  match i with
  | 0 => exact ⟨r 0, junk, junk, ⟨0, 0, 0⟩, ha⟩
  | 1 => exact ⟨r 1, junk, junk, ⟨0, 0, 0⟩, hb⟩

/-- What can be seen of it: who is master and what each device has sent, the packet taken, and how
many masters there are. -/
structure Seen where
  devices : List (Bool × List (U16 × PType))
  packet : Option U16
  masters : Nat
  deriving DecidableEq

/-- What can be seen of a network. -/
def seen (net : FakeNet 2) : Seen where
  devices := (List.finRange 2).map fun i => (decide ((net.node i).getCurrentState = .master),
    (net.node i).sent.map fun p => (p.id, p.type))
  packet := net.packet.map (·.id)
  masters := net.getNumMasters

/-- The network after some calls. -/
def run (r : Fin 2 → Rand) (acts : List (FakeNet.Act 2)) : Except Fault (FakeNet 2) := do
  let net ← two r
  net.after acts

/-- Different random numbers for the two. -/
def apart (i : Fin 2) : Rand := fun n => 17 * n + 100 * i.val

/-- Eight seconds pass, then `k` `Tick`s a millisecond apart. -/
def calls (k : Nat) : List (FakeNet.Act 2) :=
  .advance 7999 :: (List.replicate k [.advance 1, .tick fun _ => 1]).flatten

end FakeNetwork

/-- A concrete case of `network_tick`, three `Tick`s: both become master and send a heartbeat, of
which the network takes that of the first; the second passes it on and claims, and only the claim,
sent last, waits; the first hears the claim and gives up. -/
example :
    (FakeNetwork.run FakeNetwork.apart (FakeNetwork.calls 1)).toOption.map FakeNetwork.seen =
      some ⟨[(true, [(0x13, .heartbeat)]), (true, [(0x77, .heartbeat)])], some 0x13, 2⟩ ∧
    (FakeNetwork.run FakeNetwork.apart (FakeNetwork.calls 2)).toOption.map FakeNetwork.seen =
      some ⟨[(true, [(0x13, .heartbeat)]),
        (true, [(0x77, .heartbeat), (0x13, .heartbeat), (0x99, .claimMaster)])], some 0x99, 2⟩ ∧
    (FakeNetwork.run FakeNetwork.apart (FakeNetwork.calls 3)).toOption.map FakeNetwork.seen =
      some ⟨[(false, [(0x13, .heartbeat), (0x99, .claimMaster)]),
        (true, [(0x77, .heartbeat), (0x13, .heartbeat), (0x99, .claimMaster)])], some 0x99, 1⟩ := by
  decide +kernel

/-- With packet loss 2, the packet of the first device is lost for the second if that draws 4, and
heard if it draws 5. -/
example :
    (FakeNetwork.run FakeNetwork.apart [.loss 2, .advance 8000, .tick fun _ => 1, .advance 1,
      .tick fun i => 5 - i.val]).toOption.map FakeNetwork.seen =
      some ⟨[(true, [(0x13, .heartbeat)]), (true, [(0x77, .heartbeat)])], some 0x77, 2⟩ ∧
    (FakeNetwork.run FakeNetwork.apart [.loss 2, .advance 8000, .tick fun _ => 1, .advance 1,
      .tick fun i => 4 + i.val]).toOption.map FakeNetwork.seen =
      some ⟨[(true, [(0x13, .heartbeat)]),
        (true, [(0x77, .heartbeat), (0x13, .heartbeat), (0x99, .claimMaster)])], some 0x99, 2⟩ := by
  decide +kernel

/-! ## C136: helpers of the tests that do not do what they say -/

/-- What there is of a network apart from the packets handed to the radios. -/
def FakeNetwork.rest {n} (net : FakeNet n) :
    U32 × (Fin n → Node) × (Fin n → Option Packet) × Option Packet × Int :=
  (net.now, net.node, fun i => (net.radio i).sent, net.packet, net.loss)

theorem rest_eq {n} {a b : FakeNet n} (h : FakeNetwork.rest a = FakeNetwork.rest b) :
    a.now = b.now ∧ a.node = b.node ∧ (∀ i, (a.radio i).sent = (b.radio i).sent) ∧
      a.packet = b.packet ∧ a.loss = b.loss := by
  unfold FakeNetwork.rest at h
  simp only [Prod.mk.injEq] at h
  exact ⟨h.1, h.2.1, fun i => congrFun h.2.2.1 i, h.2.2.2.1, h.2.2.2.2⟩

theorem distribute_rest {n} {a b : FakeNet n} (h : FakeNetwork.rest a = FakeNetwork.rest b)
    (draws) : a.distribute draws = b.distribute draws := by
  obtain ⟨h1, h2, h3, h4, h5⟩ := rest_eq h
  unfold FakeNet.distribute FakeRadio.setReceivedPacket
  simp only [h1, h2, h3, h4, h5]

theorem step_rest {n} {a b : FakeNet n} (h : FakeNetwork.rest a = FakeNetwork.rest b)
    (act : FakeNet.Act n) :
    (a.step act).map FakeNetwork.rest = (b.step act).map FakeNetwork.rest := by
  obtain ⟨h1, h2, h3, h4, h5⟩ := rest_eq h
  cases act with
  | tick draws =>
    simp only [FakeNet.step, FakeNet.tick, distribute_rest h]
  | advance | loss | transmit =>
    simp only [FakeNet.step, FakeNet.advanceMillis, FakeNet.setPacketLoss, FakeNet.transmitPacket,
      Except.map, FakeNetwork.rest, FakeRadio.setReceivedPacket, h1, h2, h3, h4, h5]
  | reinit =>
    simp only [FakeNet.step, FakeNet.reinitNode, h1, bind, Except.bind, pure, Except.pure]
    split
    · rfl
    · simp only [Except.map, FakeNetwork.rest, h2, h3, h4, h5]

/-- C136: `TransmitPacket` has no effect.  Whatever a test does with the network, if all its calls of
`TransmitPacket` are left out, every device ends in the same state, the same packets are on their
way, and the test aborts in the same cases. -/
theorem transmit_does_nothing {n} (net : FakeNet n) (acts : List (FakeNet.Act n)) :
    (net.after acts).map FakeNetwork.rest =
      (net.after (acts.filter fun a => match a with | .transmit _ => false | _ => true)).map
        FakeNetwork.rest := by
  suffices h : ∀ a b : FakeNet n, FakeNetwork.rest a = FakeNetwork.rest b →
      (a.after acts).map FakeNetwork.rest =
      (b.after (acts.filter fun a => match a with | .transmit _ => false | _ => true)).map
        FakeNetwork.rest from h net net rfl
  induction acts with
  | nil =>
    intro a b h
    show Except.ok (FakeNetwork.rest a) = Except.ok (FakeNetwork.rest b)
    rw [h]
  | cons act acts ih =>
    intro a b h
    have go : (a.after (act :: acts)).map FakeNetwork.rest =
        (b.after (act :: acts.filter fun a => match a with | .transmit _ => false | _ => true)).map
          FakeNetwork.rest := by
      have hs := step_rest h act
      unfold FakeNet.after
      rw [List.foldlM_cons, List.foldlM_cons]
      simp only [bind, Except.bind]
      cases ha : a.step act with
      | error e =>
        rw [ha] at hs
        cases hb : b.step act with
        | error e' => rw [hb] at hs; cases hs; rfl
        | ok b' => rw [hb] at hs; cases hs
      | ok a' =>
        rw [ha] at hs
        cases hb : b.step act with
        | error e' => rw [hb] at hs; cases hs
        | ok b' =>
          rw [hb] at hs
          injection hs with hs
          exact ih a' b' hs
    cases act with
    | transmit p =>
      rw [List.filter_cons_of_neg (by simp)]
      exact ih (a.transmitPacket p) b h
    | advance | tick | reinit | loss =>
      rw [List.filter_cons_of_pos (by rfl)]
      exact go

/-- C136: right after `TransmitPacket`, a `Tick` is the same as without it. -/
theorem transmit_then_tick {n} (net : FakeNet n) (p draws) :
    (net.transmitPacket p).tick draws = net.tick draws := by
  unfold FakeNet.tick
  rw [distribute_rest (a := net.transmitPacket p) (b := net) rfl]

theorem newNode_slave {now rand junk junk' seeds} {node : Node}
    (h : FakeNet.newNode now rand junk junk' seeds = .ok node) : node.state = .slave := by
  unfold FakeNet.newNode at h
  obtain ⟨r, _, h⟩ := Node.bind_ok h
  cases h
  show (Node.init now rand junk junk').state = .slave
  unfold Node.init Node.beginSlave
  simp only [Node.armSlaveTimeout_eq]

/-- C136: `resetMaster` resets the first device if that is a master, and otherwise nothing: the
masters it is to reset stay masters. -/
theorem reset_master_first_only {n} (rand : Fin (n + 1) → Rand) (junk junk' seeds)
    (net : FakeNet (n + 1)) :
    net.resetMaster rand junk junk' seeds =
      if (net.node 0).getCurrentState = .master then net.reinitNode 0 (rand 0) junk junk' seeds
      else .ok net := by
  have rest : ∀ (l : List (Fin (n + 1))) (net : FakeNet (n + 1)),
      ¬ (net.node 0).getCurrentState = .master →
      l.foldlM (fun net i =>
        if (net.node 0).getCurrentState = .master then net.reinitNode i (rand i) junk junk' seeds
        else .ok net) net = .ok net := by
    intro l
    induction l with
    | nil => intro net _; rfl
    | cons i l ih =>
      intro net hn
      rw [List.foldlM_cons, if_neg hn]
      exact ih net hn
  unfold FakeNet.resetMaster
  split
  · rename_i hm
    rw [List.finRange_succ, List.foldlM_cons, if_pos hm]
    cases hr : net.reinitNode 0 (rand 0) junk junk' seeds with
    | error e => rfl
    | ok net' =>
      refine rest _ net' ?_
      unfold FakeNet.reinitNode at hr
      obtain ⟨node, hn, hr⟩ := Node.bind_ok hr
      cases hr
      show ¬ (if (0 : Fin (n + 1)) = 0 then node else net.node 0).getCurrentState = .master
      rw [if_pos rfl]
      unfold Node.getCurrentState
      rw [newNode_slave hn]
      decide
  · rename_i hm
    exact rest _ net hm

/-- C136, a case that occurs: a network whose only master is the second device, which `resetMaster`
leaves as it is. -/
theorem reset_master_misses :
    ∃ net₀ net : FakeNet 2, net₀.Booted ∧ net₀.after (FakeNetwork.calls 3) = .ok net ∧
      net.getNumMasters = 1 ∧ (net.node 1).getCurrentState = .master ∧
      ∀ rand junk junk' seeds, net.resetMaster rand junk junk' seeds = .ok net := by
  have c : (FakeNetwork.run FakeNetwork.apart (FakeNetwork.calls 3)).toOption.map
      (fun net => decide (net.getNumMasters = 1 ∧ (net.node 1).getCurrentState = .master ∧
        (net.node 0).getCurrentState ≠ .master)) = some true := by decide +kernel
  obtain ⟨net, hr, c⟩ := Option.map_eq_some_iff.1 c
  have hr : FakeNetwork.run FakeNetwork.apart (FakeNetwork.calls 3) = .ok net := by
    cases e : FakeNetwork.run FakeNetwork.apart (FakeNetwork.calls 3) with
    | error _ => rw [e] at hr; cases hr
    | ok _ => rw [e] at hr; cases hr; rfl
  unfold FakeNetwork.run at hr
  obtain ⟨net₀, h₀, hr⟩ := Node.bind_ok hr
  have c := of_decide_eq_true c
  refine ⟨net₀, net, FakeNetwork.two_booted h₀, hr, c.1, c.2.1, fun _ _ _ _ => ?_⟩
  rw [reset_master_first_only, if_neg c.2.2]

/-- A concrete case of `transmit_does_nothing`: a packet handed to the network before a `Tick` is
heard by nobody. -/
example : (FakeNetwork.run FakeNetwork.apart [.transmit Fakes.packet, .advance 100,
    .tick fun _ => 1]).toOption.map FakeNetwork.seen =
      some ⟨[(false, []), (false, [])], none, 0⟩ := by
  decide +kernel

end Firefly.Props
