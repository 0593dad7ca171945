import Verif.Lemmas.FakeDeaf
import Verif.Props.FakeResetDemo
import Verif.Props.FakeSafe

/-! # Packet loss in the network of the integration tests (C148) -/

namespace Firefly.Props
open Spec FakeNet

section
variable {n : Nat} {net mid : Nat → FakeNet n} {R : Nat → List (Fin n)} {d : Nat → U32} {K N : Nat}
  {A : Fin n}

/-- C148: whatever packets are lost and whatever other devices are reset, the only master stays the
only master as long as every other device has passed on a heartbeat, or was reset, in the last
5 s. -/
theorem loss_keeps_master (c : LossCourse net mid R d K N A) (hn : n ≤ 42) {k : Nat} (hK : K ≤ k)
    (hk : k ≤ N) : OnlyMaster (net k) A := by
  obtain ⟨_, _, p⟩ := c.phase hn hK hk
  exact p.lossy.only

/-- C148: lost packets do not make the devices send for ever: in any `10 n + 3` `Tick`s there is one
after which no packet is on its way. -/
theorem loss_falls_quiet (c : LossCourse net mid R d K N A) (hn : n ≤ 42) {k : Nat} (hK : K ≤ k)
    (hk : k + (10 * n + 3) ≤ N) :
    ∃ j, k < j ∧ j ≤ k + (10 * n + 3) ∧ (net j).packet = none ∧
      ∀ i, ((net j).radio i).sent = none :=
  c.quiet hn hK hk

end

section
variable {n : Nat} {net mid : Nat → FakeNet n} {R : Nat → List (Fin n)} {loss : Nat → Int}
  {d : Nat → U32} {draws : Nat → Fin n → Nat} {N : Nat}

/-- C148: on the other hand, in any course of events, a device to which everything is lost for 7 s is
master then, whatever the others do. -/
theorem deaf_becomes_master (c : AnyCourse net mid R loss d draws N) (hn : n ≤ 99) {k m : Nat}
    (hkm : k < m) (hm : m ≤ N) {i : Fin n} (hR : ∀ j, k ≤ j → j < m → i ∉ R j)
    (hl : ∀ j, k ≤ j → j < m → LostOn (loss j) (draws j) i)
    (ht : (net k).now.toNat + 7000 ≤ (net m).now.toNat) :
    ((net m).node i).getCurrentState = .master :=
  c.deaf hn hkm hm hR hl ht

end

/-- A run of the test with the same random numbers throughout exists. -/
theorem run_exists {n} {net : FakeNet n} (h : net.Able) (draws : Nat → Fin n → Nat) (m : Nat) :
    ∃ net', net.runTicks draws m = .ok net' ∧ net'.Able := by
  induction m generalizing net with
  | zero => exact ⟨net, rfl, h⟩
  | succ m ih =>
    have h1 : (net.advanceMillis 1).Able := ⟨h.node, h.radio, h.packet⟩
    obtain ⟨n1, e1, k1⟩ := tick_able (draws := draws m) h1
    obtain ⟨n2, e2, k2⟩ := ih k1
    exact ⟨n2, by rw [runTicks, e1]; exact e2, k2⟩

/-- `runTicks`, and the random numbers used. -/
theorem run_ticks_draws {n} {z : Fin n → Nat} {k : Nat} {net c : FakeNet n}
    (h : net.runTicks (fun _ => z) k = .ok c) :
    ∃ tr : Nat → FakeNet n, tr 0 = net ∧ tr k = c ∧
      ∀ j < k, ((tr j).advanceMillis 1).tick z = .ok (tr (j + 1)) := by
  induction k generalizing net with
  | zero => cases h; exact ⟨fun _ => c, rfl, rfl, fun j hj => absurd hj (by omega)⟩
  | succ k ih =>
    obtain ⟨net₁, h1, h2⟩ := Node.bind_ok h
    obtain ⟨tr, t0, tk, ts⟩ := ih h2
    refine ⟨fun j => if j = 0 then net else tr (j - 1), rfl, by simpa using tk, fun j hj => ?_⟩
    cases j with
    | zero => simpa [t0] using h1
    | succ j => simpa using ts j (by omega)

/-- C148: the test `stableWithMildPacketLoss` depends on its random numbers: with the loss of 1 in
100 that it sets, whatever network the constructor made, if all random numbers drawn for the losses
are multiples of 100 then every device is master after 7 s, and for as long as this goes on. -/
theorem mild_loss_can_split {n} {net : FakeNet n} (b : net.Booted) (hn : n ≤ 99) {z : Fin n → Nat}
    (hz : ∀ i, z i % 100 = 0) {m : Nat} (h1 : 7000 ≤ m) (h2 : m + 256000 < 2 ^ 32) :
    ∃ net', (net.setPacketLoss 100).runTicks (fun _ => z) m = .ok net' ∧
      net'.getNumMasters = n := by
  have hab := booted_able b
  obtain ⟨net', e, _⟩ := run_exists (net := net.setPacketLoss 100)
    ⟨hab.node, hab.radio, hab.packet⟩ (fun _ => z) m
  refine ⟨net', e, ?_⟩
  obtain ⟨tr, t0, tm, ts⟩ := run_ticks_draws e
  have hloss : ∀ j, j ≤ m → (tr j).loss = 100 := by
    intro j
    induction j with
    | zero => intro _; rw [t0]; rfl
    | succ j ih =>
      intro hj
      have r := tick_round (ts j (by omega))
      rw [r.loss]; exact ih (by omega)
  -- the same course, starting before the loss is set
  let tr' : Nat → FakeNet n := fun j => if j = 0 then net else tr j
  have hset : ∀ j, j < m → (tr' j).setPacketLoss 100 = tr j := by
    intro j hj
    cases j with
    | zero => exact t0.symm
    | succ j =>
      show { tr (j + 1) with loss := 100 } = tr (j + 1)
      rw [← hloss (j + 1) (by omega)]
  have hnow0 : (tr' 0).now.toNat = n := by
    show net.now.toNat = n
    rw [b.now, BitVec.toNat_ofNat]; omega
  have hnow : ∀ j, j ≤ m → (tr' j).now.toNat = n + j := by
    intro j
    induction j with
    | zero => intro _; exact hnow0
    | succ j ih =>
      intro hj
      have r := tick_round (ts j (by omega))
      have e1 : (tr' (j + 1)).now = (tr j).now + 1 := r.now
      have e2 : (tr j).now = (tr' j).now := by rw [← hset j (by omega)]; rfl
      have := ih (by omega)
      have e4 : (1 : U32).toNat = 1 := rfl
      rw [e1, e2, BitVec.toNat_add, this, e4]; omega
  have c : AnyCourse tr' tr' (fun _ => []) (fun _ => 100) (fun _ => 1) (fun _ => z) m := by
    refine ⟨b, fun k _ => .nil _, fun k hk => ?_, fun k hk => ?_⟩
    · rw [hset k hk]; exact ts k hk
    · have := hnow k (by omega)
      have e4 : (1 : U32).toNat = 1 := rfl
      rw [this, e4]; omega
  have hm : tr' m = net' := by
    show (if m = 0 then net else tr m) = net'
    rw [if_neg (by omega), tm]
  have : ∀ i, (net'.node i).state = .master := by
    intro i
    rw [← hm]
    exact c.deaf hn (k := 0) (by omega) (Nat.le_refl _) (fun _ _ _ => by simp)
      (fun _ _ _ => ⟨by decide, by have := hz i; omega⟩) (by rw [hnow m (Nat.le_refl _), hnow0]; omega)
  exact getNumMasters_all this

/-- A concrete case: the network of the tests, 20 s of `stableWithMildPacketLoss`. -/
example : ∃ net net' : FakeNet 5, net.Booted ∧
    (net.setPacketLoss 100).runTicks (fun _ _ => 300) 20000 = .ok net' ∧
    net'.getNumMasters = 5 := by
  obtain ⟨net, h, _⟩ := network_boots 5 (fun _ n => n) FakeNetwork.junk FakeNetwork.junk ⟨0, 0, 0⟩
  obtain ⟨net', h1, h2⟩ := mild_loss_can_split h (by decide) (z := fun _ => 300) (fun _ => rfl)
    (m := 20000) (by decide) (by decide)
  exact ⟨net, net', h, h1, h2⟩

end Firefly.Props
