import Verif.Spec.FakeNetwork
import Verif.Lemmas.Fakes

/-! # Lemmas about the network of the integration tests -/

namespace Firefly
open Spec

namespace FakeNet

/-- What device `i` does in a `Tick`. -/
def device {n} (net : FakeNet n) (i : Fin n) : Except Fault FakeDevice :=
  FakeDevice.step ⟨net.radio i, net.node i⟩ (.tick net.now net.now)

theorem tickNode_ok {n} {net net' : FakeNet n} {i : Fin n} (h : net.tickNode i = .ok net') :
    ∃ d, net.device i = .ok d ∧ net'.now = net.now ∧ net'.loss = net.loss ∧
      net'.node i = d.node ∧ (∀ j, j ≠ i → net'.node j = net.node j ∧ net'.radio j = net.radio j) ∧
      ((net.packet = none ∧ net'.packet = d.radio.sent ∧
          net'.radio i = { d.radio with sent := none }) ∨
        (net.packet.isSome ∧ net'.packet = net.packet ∧ net'.radio i = d.radio)) := by
  simp only [tickNode, bind, Except.bind, pure, Except.pure] at h
  split at h
  · cases h
  · rename_i d hd
    cases h
    refine ⟨d, hd, rfl, rfl, by simp, fun j hj => by simp [hj], ?_⟩
    cases hp : net.packet with
    | none => exact .inl ⟨rfl, by simp [FakeRadio.getSentPacket], by
        simp [FakeRadio.getSentPacket]⟩
    | some p => exact .inr ⟨rfl, by simp, by simp⟩

/-- The loop of `Tick` over some of the devices. -/
theorem fold_ok {n} {l : List (Fin n)} (nd : l.Nodup) {net net' : FakeNet n}
    (h : l.foldlM tickNode net = .ok net') :
    net'.now = net.now ∧ net'.loss = net.loss ∧
    (∀ i, i ∉ l → net'.node i = net.node i ∧ net'.radio i = net.radio i) ∧
    ∃ d : Fin n → FakeDevice, (∀ i ∈ l, net.device i = .ok (d i) ∧ net'.node i = (d i).node) ∧
      ((net.packet.isSome ∧ net'.packet = net.packet ∧ ∀ i ∈ l, net'.radio i = (d i).radio) ∨
       (net.packet = none ∧ net'.packet = none ∧
          ∀ i ∈ l, (d i).radio.sent = none ∧ net'.radio i = (d i).radio) ∨
       (net.packet = none ∧ ∃ l₁ k l₂ p, l = l₁ ++ k :: l₂ ∧ (∀ i ∈ l₁, (d i).radio.sent = none) ∧
          (d k).radio.sent = some p ∧ net'.packet = some p ∧
          ∀ i ∈ l, net'.radio i = if i = k then { (d i).radio with sent := none }
            else (d i).radio)) := by
  induction l generalizing net with
  | nil =>
    cases h
    refine ⟨rfl, rfl, fun _ _ => ⟨rfl, rfl⟩, fun i => ⟨.init, net'.node i⟩, by simp, ?_⟩
    cases hp : net'.packet with
    | none => exact .inr (.inl ⟨rfl, rfl, by simp⟩)
    | some p => exact .inl ⟨rfl, rfl, by simp⟩
  | cons i l ih =>
    rw [List.foldlM_cons] at h
    obtain ⟨net₁, h1, h2⟩ := Node.bind_ok h
    obtain ⟨di, e1, e2, e3, e4, e5, e6⟩ := tickNode_ok h1
    obtain ⟨hil, nd'⟩ := List.nodup_cons.1 nd
    obtain ⟨f1, f2, f3, d, f4, f5⟩ := ih nd' h2
    have hdev : ∀ j ∈ l, net₁.device j = net.device j := by
      intro j hj
      have hne : j ≠ i := fun e => hil (e ▸ hj)
      unfold device
      rw [(e5 j hne).1, (e5 j hne).2, e2]
    refine ⟨f1.trans e2, f2.trans e3, ?_, fun j => if j = i then di else d j, ?_, ?_⟩
    · intro j hj
      rw [List.mem_cons, not_or] at hj
      rw [(f3 j hj.2).1, (f3 j hj.2).2]
      exact e5 j hj.1
    · intro j hj
      rcases List.mem_cons.1 hj with rfl | hj
      · simp only [if_true]
        exact ⟨e1, (f3 j hil).1.trans e4⟩
      · have hne : j ≠ i := fun e => hil (e ▸ hj)
        simp only [if_neg hne]
        exact ⟨(hdev j hj) ▸ (f4 j hj).1, (f4 j hj).2⟩
    · have hri := (f3 i hil).2
      have hne : ∀ j ∈ l, j ≠ i := fun j hj e => hil (e ▸ hj)
      rcases e6 with ⟨g1, g2, g3⟩ | ⟨g1, g2, g3⟩
      · cases hs : di.radio.sent with
        | none =>
          have hdi : { di.radio with sent := none } = di.radio := by rw [← hs]
          rw [hs] at g2
          rcases f5 with ⟨k1, k2, k3⟩ | ⟨k1, k2, k3⟩ | ⟨k1, l₁, k, l₂, p, k2, k3, k4, k5, k6⟩
          · rw [g2] at k1; cases k1
          · refine .inr (.inl ⟨g1, k2, fun j hj => ?_⟩)
            rcases List.mem_cons.1 hj with rfl | hj
            · simp only [if_true]
              exact ⟨hs, by rw [hri, g3, hdi]⟩
            · simp only [if_neg (hne j hj)]
              exact k3 j hj
          · refine .inr (.inr ⟨g1, i :: l₁, k, l₂, p, by rw [k2]; rfl, fun j hj => ?_, ?_, k5, ?_⟩)
            · rcases List.mem_cons.1 hj with rfl | hj
              · simp only [if_true]; exact hs
              · have : j ∈ l := by rw [k2]; simp [hj]
                simp only [if_neg (hne j this)]; exact k3 j hj
            · have : k ∈ l := by rw [k2]; simp
              simp only [if_neg (hne k this)]; exact k4
            · intro j hj
              have hk : k ∈ l := by rw [k2]; simp
              rcases List.mem_cons.1 hj with rfl | hj
              · rw [if_neg (fun e : j = k => hil (e ▸ hk))]
                simp only [if_true]
                rw [hri, g3, hdi]
              · simp only [if_neg (hne j hj)]
                exact k6 j hj
        | some p =>
          rw [hs] at g2
          rcases f5 with ⟨k1, k2, k3⟩ | ⟨k1, k2, k3⟩ | ⟨k1, _⟩
          · refine .inr (.inr ⟨g1, [], i, l, p, rfl, by simp, by simp [hs], by rw [k2, g2], ?_⟩)
            intro j hj
            rcases List.mem_cons.1 hj with rfl | hj
            · simp only [if_true]; rw [hri, g3]
            · rw [if_neg (hne j hj)]
              simp only [if_neg (hne j hj)]
              exact k3 j hj
          · rw [g2] at k1; cases k1
          · rw [g2] at k1; cases k1
      · rcases f5 with ⟨k1, k2, k3⟩ | ⟨k1, k2, k3⟩ | ⟨k1, _⟩
        · refine .inl ⟨g1, by rw [k2, g2], fun j hj => ?_⟩
          rcases List.mem_cons.1 hj with rfl | hj
          · simp only [if_true]; rw [hri, g3]
          · simp only [if_neg (hne j hj)]
            exact k3 j hj
        · rw [g2] at k1; rw [k1] at g1; cases g1
        · rw [g2] at k1; rw [k1] at g1; cases g1

theorem step_tick {d d' : FakeDevice} {now} (h : FakeDevice.step d (.tick now now) = .ok d') :
    d.node.tick .host now d.radio.received now d.radio.received = .ok d'.node ∧
      d'.radio = FakeDevice.handOver d.radio d.node d'.node := by
  simp only [FakeDevice.step, bind, Except.bind, pure, Except.pure] at h
  split at h
  · cases h
  · rename_i node he
    cases h; exact ⟨he, rfl⟩

theorem handOver_sent (r : FakeRadio) (s s' : Node) :
    (FakeDevice.handOver r s s').sent = (s'.sent.drop s.sent.length).getLast?.or r.sent := by
  unfold FakeDevice.handOver
  rw [FakeRadio.sendAll]

/-- What device `i` hears. -/
def staged {n} (net : FakeNet n) (draws : Fin n → Nat) (i : Fin n) : Option Packet :=
  (if heard net.loss (draws i) then net.packet else none).map FakeRadio.clearTail

theorem tick_round {n} {net net' : FakeNet n} {draws} (h : net.tick draws = .ok net') :
    Round net net' (net.staged draws) := by
  obtain ⟨h1, h2, -, d, h4, h5⟩ := fold_ok (List.nodup_finRange n) h
  have hd : ∀ i, (net.node i).tick .host net.now (net.staged draws i) net.now
      (net.staged draws i) = .ok (net'.node i) ∧ (d i).radio.sent = Waiting net net' i := by
    intro i
    obtain ⟨e1, e2⟩ := h4 i (List.mem_finRange i)
    obtain ⟨e3, e4⟩ := step_tick e1
    rw [e2]
    refine ⟨e3, ?_⟩
    rw [e4, handOver_sent, ← e2]
    rfl
  refine ⟨h1, h2, fun i => (hd i).1, ?_⟩
  rcases h5 with ⟨k1, -⟩ | ⟨-, k2, k3⟩ | ⟨-, l₁, k, l₂, p, k2, k3, k4, k5, k6⟩
  · cases k1
  · refine .inl ⟨fun i => ?_, k2, fun i => ?_⟩
    · rw [← (hd i).2]; exact (k3 i (List.mem_finRange i)).1
    · rw [(k3 i (List.mem_finRange i)).2]; exact (k3 i (List.mem_finRange i)).1
  · refine .inr ⟨k, p, fun i hi => ?_, ?_, k5, fun i => ?_⟩
    · rw [← (hd i).2]
      apply k3
      have hm := List.mem_finRange i
      have hs : (List.finRange n).Pairwise (· < ·) := List.pairwise_lt_finRange n
      rw [k2] at hm hs
      rcases List.mem_append.1 hm with hm | hm
      · exact hm
      · rcases List.mem_cons.1 hm with rfl | hm
        · exact absurd hi (Fin.lt_irrefl _)
        · have := (List.pairwise_cons.1 (List.pairwise_append.1 hs).2.1).1 i hm
          exact absurd hi (by omega)
    · rw [← (hd k).2]; exact k4
    · rw [k6 i (List.mem_finRange i), ← (hd i).2]
      split <;> rfl

end FakeNet
end Firefly
