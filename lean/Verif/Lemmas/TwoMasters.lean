import Verif.Lemmas.HwNet
import Verif.Props.Election

/-! # An execution in which two neighbouring masters never resolve (for C99) -/

namespace Firefly.TwoMasters
open Spec

/-- Two devices in reach of each other. -/
def nbrs : Fin 2 → List (Fin 2)
  | 0 => [1]
  | 1 => [0]

/-- The other device. -/
def other (i : Fin 2) : Fin 2 := 1 - i

theorem nbrs_other (i : Fin 2) : i ∈ nbrs (other i) := by revert i; decide

/-- Where the packet ids of a device start. -/
def base (i : Fin 2) : Nat := 100 + 100 * i.val

/-- The id of the heartbeat of device `i` in round `k`. -/
def beatId (i : Fin 2) (k : Nat) : U16 := BitVec.ofNat 16 (2 + (base i + 10 * (k % 2)) % 65533)

/-- The id of the claims of device `i`. -/
def claimId (i : Fin 2) : U16 := BitVec.ofNat 16 (2 + (base i + 1) % 65533)

/-- The random numbers device `i` draws after its heartbeat of round `k`: the election number, the
id of the claim, the id of the next heartbeat, and so on. -/
def stream (i : Fin 2) (k : Nat) : Rand := fun n =>
  if n % 3 = 0 then 65533 else if n % 3 = 1 then base i + 1 else base i + 10 * ((k + n / 3 + 1) % 2)

/-- The random numbers from power-on: the timeout, the id of the first heartbeat, then `stream`. -/
def bootRand (i : Fin 2) : Rand := fun n =>
  if n = 0 then 0 else if n = 1 then base i else stream i 0 (n - 2)

theorem stream_next (i : Fin 2) (k : Nat) : (stream i k).rest.rest.rest = stream i (k + 1) := by
  funext n
  show stream i k (n + 1 + 1 + 1) = _
  unfold stream
  rw [show (n + 1 + 1 + 1) % 3 = n % 3 by omega, show (n + 1 + 1 + 1) / 3 = n / 3 + 1 by omega,
    show k + (n / 3 + 1) + 1 = k + 1 + n / 3 + 1 by omega]

theorem bootRand_rest (i : Fin 2) : (bootRand i).rest.rest = stream i 0 := by
  funext n
  show bootRand i (n + 1 + 1) = _
  simp [bootRand]

theorem ids_ne (i : Fin 2) (k j : Nat) :
    beatId i k ≠ beatId (other i) j ∧ claimId i ≠ beatId (other i) j ∧
      beatId i k ≠ beatId i (k + 1) ∧ beatId i k ≠ 0 ∧ beatId i k < 0xFFFE := by
  have hk : k % 2 = 0 ∧ (k + 1) % 2 = 1 ∨ k % 2 = 1 ∧ (k + 1) % 2 = 0 := by omega
  have hj : j % 2 = 0 ∨ j % 2 = 1 := by omega
  unfold beatId claimId
  rcases hk with ⟨h1, h2⟩ | ⟨h1, h2⟩ <;> rcases hj with h3 | h3 <;> rw [h1, h2, h3] <;> revert i <;>
    decide

theorem beatId_two (i : Fin 2) (k : Nat) : beatId i (k + 2) = beatId i k := by
  unfold beatId; rw [show (k + 2) % 2 = k % 2 by omega]

/-- The time of the heartbeats of round `k`. -/
def time (k : Nat) : U32 := BitVec.ofNat 32 (8000 + 2000 * k)

theorem time_toNat {k : Nat} (h : k ≤ 2000000) : (time k).toNat = 8000 + 2000 * k := by
  rw [time, BitVec.toNat_ofNat]; omega

theorem repr_push {m : NM} {h : List U16} (hr : m.Repr h) (x : U16) : (m.push x).Repr (x :: h) := by
  obtain ⟨m', e, hr'⟩ := hr.add x
  rw [NM.add_eq_push hr.1] at e
  cases e; exact hr'

/-- The number of heartbeats heard. -/
def beatsHeard (h : List Entry) : Nat := ((Props.heardIn h).filter (·.type = .heartbeat)).length

/-- What holds of device `i` with `d` draws and heartbeats of round `k` sent; `x` is true before it
has heard the heartbeat of the other device. -/
structure Dev (net : HwNet 2) (i : Fin 2) (k : Nat) (x : Bool) : Prop where
  wf : (net.node i).WF
  master : (net.node i).state = .master
  rand : (net.node i).rand = if x then stream i k else (stream i k).rest.rest
  timer : (net.node i).timers.heartbeat = time k + 1000
  ids : ∃ h, (net.node i).nm.Repr h ∧
    (x = true → (∀ j < 5, h.getD j 0 ≠ beatId (other i) k) ∧
      ∀ j < 2, h.getD j 0 ≠ beatId (other i) (k + 1)) ∧
    (x = false → (∀ j < 4, h.getD j 0 ≠ beatId (other i) (k + 1)) ∧
      h.getD 0 0 ≠ beatId (other i) k)
  heard : beatsHeard (net.hist i) = if x then k else k + 1
  kept : ∀ e ∈ net.hist i, ¬ Entry.Demoted e
  sorted : ((net.hist i).map Entry.time ++ [0]).Pairwise (· ≥ ·)
  early : ∀ t ∈ (net.hist i).map Entry.time ++ [0], t ≤ time k

/-- The heartbeat of round `k` of device `i` is on the air. -/
def OnAir (net : HwNet 2) (i : Fin 2) (k : Nat) : Prop :=
  ∃ q f, (i, f) ∈ net.air ∧ Hw.sendPacket q = .ok f ∧ q.type = .heartbeat ∧ q.len = 4 ∧
    q.id = beatId i k

/-- Device `i` makes a radio tick. -/
theorem tick_reach {net : HwNet 2} (hr : HwNet.Reach nbrs net) {i now rx s' fs}
    (hrx : HwNet.CanRead nbrs net i now rx)
    (hst : (net.node i).radioTick .arduino now rx = .ok s')
    (hfs : Board.frames (net.node i) s' = .ok fs) :
    ∃ net', HwNet.Reach nbrs net' ∧ net'.node i = s' ∧
      net'.hist i = ⟨net.node i, .radioTick now rx, s'⟩ :: net.hist i ∧
      (∀ j, j ≠ i → net'.node j = net.node j ∧ net'.hist j = net.hist j) ∧
      net'.air = fs.map (i, ·) ++ net.air :=
  ⟨_, .step hr (.act i (.radioTick now rx) (by rintro _ _ ⟨⟩; exact hrx) nofun hst hfs), by simp,
    by simp, fun j hj => by simp [hj], rfl⟩

theorem canRead_none {net : HwNet 2} (i now) : HwNet.CanRead nbrs net i now none :=
  ⟨⟨now, none, .heartbeat, Vector.replicate 58 0⟩, rfl, rfl, nofun⟩

theorem canRead_other {net : HwNet 2} {i k} (h : OnAir net (other i) k) (now : U32) :
    ∃ p, HwNet.CanRead nbrs net i now (some p) ∧ p.type = .heartbeat ∧ p.len = 0 ∧
      p.id = beatId (other i) k := by
  obtain ⟨q, f, hf, hs, ht, hl, hid⟩ := h
  obtain ⟨f', r, h1, h2, h3, h4, _, h5, _⟩ := Props.framing_roundtrip q
    ⟨0, .heartbeat, 0, Vector.replicate 58 0⟩ (by rw [hl]; decide) (by rw [hl]; decide)
  rw [hs] at h1
  cases h1
  refine ⟨r, ⟨⟨now, some f, .heartbeat, Vector.replicate 58 0⟩, rfl, h2, ?_⟩, h4.trans ht, h5,
    h3.trans hid⟩
  rintro _ ⟨⟩
  exact ⟨other i, nbrs_other i, hf⟩

theorem other_keeps {net net' : HwNet 2} {j k x} (d : Dev net j k x)
    (h : net'.node j = net.node j ∧ net'.hist j = net.hist j) : Dev net' j k x := by
  obtain ⟨h1, h2⟩ := h
  exact ⟨h1 ▸ d.wf, h1 ▸ d.master, h1 ▸ d.rand, h1 ▸ d.timer, h1 ▸ d.ids, h2 ▸ d.heard, h2 ▸ d.kept,
    h2 ▸ d.sorted, h2 ▸ d.early⟩

theorem electionId_stream (i k) : electionId .arduino (stream i k) = 0xFFFE := by
  have : stream i k 0 = 65533 := by simp [stream]
  rw [electionId, this]; decide

theorem sendId_claim (i k) : sendId .arduino (stream i k).rest = claimId i := by
  have : (stream i k).rest 0 = base i + 1 := by simp [stream, Rand.rest]
  rw [sendId, this]; rfl

theorem sendId_beat (i k) : sendId .arduino (stream i k).rest.rest = beatId i (k + 1) := by
  have : (stream i k).rest.rest 0 = base i + 10 * ((k + 1) % 2) := by simp [stream, Rand.rest]
  rw [sendId, this]; rfl

/-- The device hears the heartbeat of the other and wins the election. -/
theorem hear {net : HwNet 2} (hr : HwNet.Reach nbrs net) {i k} (d : Dev net i k true)
    (ha : OnAir net (other i) k) :
    ∃ net', HwNet.Reach nbrs net' ∧ Dev net' i k false ∧
      (∀ j, j ≠ i → net'.node j = net.node j ∧ net'.hist j = net.hist j) ∧
      ∀ x ∈ net.air, x ∈ net'.air := by
  obtain ⟨p, hrx, ht, hl, hid⟩ := canRead_other ha (time k)
  obtain ⟨h, hrep, hids, -⟩ := d.ids
  obtain ⟨hids, hids'⟩ := hids rfl
  have hrand : (net.node i).rand = stream i k := d.rand
  have hdel : (net.node i).delivered (some p) = some p := by
    have : p.id ∉ (net.node i).nm.cache.toList := by
      rw [Vector.mem_toList_iff, hrep.mem_iff, mem_lastFive]
      rintro ⟨j, hj, e⟩
      exact hids j hj (e.trans hid)
    simp [Node.delivered, this]
  have hwin : p.id < electionId .arduino (net.node i).rand := by
    rw [hrand, electionId_stream, hid]
    exact (ids_ne (other i) k 0).2.2.2.2
  obtain ⟨s', hst, htc⟩ : ∃ s', (net.node i).radioTick .arduino (time k) (some p) = .ok s' ∧
      Node.TickCase .arduino (time k) (some p) (net.node i) s' := by
    rcases Node.radioTick_result (plat := .arduino) (now := time k) (rx := some p) d.wf with
      h | ⟨h, _⟩ | ⟨h, _⟩
    · exact h
    · cases h
    · cases h
  have hwf' := Node.step_wf (op := .radioTick (time k) (some p)) d.wf hst
  obtain ⟨h1, h2, h3, h4, q, h5, h6⟩ : s'.state = .master ∧ s'.rand = (net.node i).rand.rest.rest ∧
      s'.timers = (net.node i).timers ∧
      s'.nm = ((net.node i).nm.push p.id).push (sendId .arduino (net.node i).rand.rest) ∧
      ∃ q : Packet, q.len = 0 ∧ s'.sent = (net.node i).sent ++ [p] ++ [q] := by
    have hm := d.master
    cases htc
    case electionWon p' hd _ _ _ =>
      cases hdel.symm.trans hd
      exact ⟨hm, rfl, rfl, rfl, _, rfl, rfl⟩
    all_goals simp_all
  obtain ⟨fs, hfs⟩ : ∃ fs, Board.frames (net.node i) s' = .ok fs := by
    apply mapM_sendPacket
    intro x hx
    rw [h6, List.append_assoc, List.drop_left] at hx
    have : x.len = 0 := by
      rcases List.mem_cons.1 hx with rfl | hx
      · exact hl
      · rcases List.mem_cons.1 hx with rfl | hx
        · exact h5
        · cases hx
    rw [this]; decide
  obtain ⟨net', r', e1, e2, e3, e4⟩ := tick_reach hr hrx hst hfs
  refine ⟨net', r', ⟨e1 ▸ hwf', e1 ▸ h1, ?_, ?_, ?_, ?_, ?_, ?_, ?_⟩, e3, fun x hx => by
    rw [e4]; exact List.mem_append_right _ hx⟩
  · rw [e1, h2, hrand]; rfl
  · rw [e1, h3]; exact d.timer
  · rw [e1, h4, hrand, sendId_claim]
    refine ⟨_, repr_push (repr_push hrep p.id) _, nofun, fun _ => ⟨fun j hj => ?_, (ids_ne i 0 k).2.1⟩⟩
    match j with
    | 0 => exact (ids_ne i 0 (k + 1)).2.1
    | 1 => exact fun e => (ids_ne (other i) k 0).2.2.1 (hid.symm.trans e)
    | j + 2 => exact hids' j (by omega)
  · have hh : Entry.heard ⟨net.node i, .radioTick (time k) (some p), s'⟩ = some p := by
      rw [heard_tick d.wf, hdel]
    have hb := d.heard
    rw [e2]
    simp [beatsHeard, Props.heardIn, hh, ht] at hb ⊢
    exact hb
  · rw [e2]
    intro e he
    rcases List.mem_cons.1 he with rfl | he
    · rintro ⟨_, h⟩; rw [Node.getCurrentState, h1] at h; cases h
    · exact d.kept e he
  · rw [e2, List.map_cons, List.cons_append]
    exact List.pairwise_cons.2 ⟨d.early, d.sorted⟩
  · rw [e2, List.map_cons, List.cons_append]
    intro t ht
    rcases List.mem_cons.1 ht with rfl | ht
    · exact BitVec.le_refl _
    · exact d.early t ht

/-- The device sends a heartbeat. -/
theorem send_beat {net : HwNet 2} (hr : HwNet.Reach nbrs net) {i : Fin 2} {k : Nat} {s' : Node}
    (hwf : (net.node i).WF)
    (hst : (net.node i).radioTick .arduino (time k) none = .ok s') (h1 : s'.state = .master)
    (h2 : s'.rand = (net.node i).rand.rest) (h3 : s'.timers.heartbeat = time k + 1000)
    (h4 : s'.nm = (net.node i).nm.push (sendId .arduino (net.node i).rand))
    (h5 : s'.sent = (net.node i).sent ++ [Node.stamped .arduino
      ((net.node i).packet.writeHeartbeat ((net.node i).getNetworkMillis (time k))) (net.node i)])
    (hid : sendId .arduino (net.node i).rand = beatId i k)
    (hrand : (net.node i).rand.rest = stream i k) {h} (hrep : (net.node i).nm.Repr h)
    (hids : ∀ j < 4, h.getD j 0 ≠ beatId (other i) k)
    (hids' : h.getD 0 0 ≠ beatId (other i) (k + 1)) (hheard : beatsHeard (net.hist i) = k)
    (hkept : ∀ e ∈ net.hist i, ¬ Entry.Demoted e)
    (hsorted : ((net.hist i).map Entry.time ++ [0]).Pairwise (· ≥ ·))
    (hearly : ∀ t ∈ (net.hist i).map Entry.time ++ [0], t ≤ time k) :
    ∃ net', HwNet.Reach nbrs net' ∧ Dev net' i k true ∧ OnAir net' i k ∧
      (∀ j, j ≠ i → net'.node j = net.node j ∧ net'.hist j = net.hist j) ∧
      ∀ x ∈ net.air, x ∈ net'.air := by
  have hwf' := Node.step_wf (op := .radioTick (time k) none) hwf hst
  have hs := Props.sendPacket_ok (p := Node.stamped .arduino ((net.node i).packet.writeHeartbeat
    ((net.node i).getNetworkMillis (time k))) (net.node i)) (by show (4 : U8).toNat ≤ 58; decide)
  obtain ⟨fs, hfs, hf⟩ : ∃ fs, Board.frames (net.node i) s' = .ok fs ∧ ∃ f ∈ fs, Hw.sendPacket
      (Node.stamped .arduino ((net.node i).packet.writeHeartbeat
        ((net.node i).getNetworkMillis (time k))) (net.node i)) = .ok f := by
    rw [Board.frames, h5, List.drop_left, List.mapM_cons, hs]
    exact ⟨_, rfl, _, List.mem_cons_self, rfl⟩
  obtain ⟨f, hf, hs⟩ := hf
  obtain ⟨net', r', e1, e2, e3, e4⟩ := tick_reach hr (canRead_none i _) hst hfs
  refine ⟨net', r', ⟨e1 ▸ hwf', e1 ▸ h1, ?_, ?_, ?_, ?_, ?_, ?_, ?_⟩, ?_, e3,
    fun x hx => by rw [e4]; exact List.mem_append_right _ hx⟩
  · rw [e1, h2, hrand]; rfl
  · rw [e1, h3]
  · rw [e1, h4, hid]
    refine ⟨_, repr_push hrep _, fun _ => ⟨fun j hj => ?_, fun j hj => ?_⟩, nofun⟩
    · match j with
      | 0 => exact (ids_ne i k k).1
      | j + 1 => exact hids j (by omega)
    · match j with
      | 0 => exact (ids_ne i k (k + 1)).1
      | 1 => exact hids'
  · rw [e2]
    have hh := heard_tick (s' := s') (now := time k) (rx := none) hwf
    simp only [beatsHeard, Props.heardIn] at hheard ⊢
    rw [List.filterMap_cons_none hh]
    exact hheard
  · rw [e2]
    intro e he
    rcases List.mem_cons.1 he with rfl | he
    · rintro ⟨_, h⟩; rw [Node.getCurrentState, h1] at h; cases h
    · exact hkept e he
  · rw [e2, List.map_cons, List.cons_append]
    exact List.pairwise_cons.2 ⟨hearly, hsorted⟩
  · rw [e2, List.map_cons, List.cons_append]
    intro t ht
    rcases List.mem_cons.1 ht with rfl | ht
    · exact BitVec.le_refl _
    · exact hearly t ht
  · exact ⟨_, f, by rw [e4]; exact List.mem_append_left _ (List.mem_map_of_mem hf), hs, rfl, rfl, hid⟩

/-- The device sends its next heartbeat. -/
theorem beat {net : HwNet 2} (hr : HwNet.Reach nbrs net) {i k} (d : Dev net i k false)
    (hk : k + 1 ≤ 2000000) :
    ∃ net', HwNet.Reach nbrs net' ∧ Dev net' i (k + 1) true ∧ OnAir net' i (k + 1) ∧
      (∀ j, j ≠ i → net'.node j = net.node j ∧ net'.hist j = net.hist j) ∧
      ∀ x ∈ net.air, x ∈ net'.air := by
  have h0 := time_toNat (k := k) (by omega)
  have h1 := time_toNat hk
  have htm : (net.node i).timers.heartbeat.toNat = 9000 + 2000 * k := by
    rw [d.timer, BitVec.toNat_add, h0]; simp; omega
  have hx : (net.node i).timerExpired (time (k + 1)) = .heartbeat := by
    rw [Node.timerExpired_heartbeat d.wf]
    constructor
    · intro h; rw [h] at htm; simp at htm; omega
    · rw [BitVec.lt_def]; omega
  obtain ⟨h, hrep, -, hids⟩ := d.ids
  obtain ⟨hids, hids'⟩ := hids rfl
  have hrand : (net.node i).rand = (stream i k).rest.rest := d.rand
  refine send_beat hr d.wf (Node.radioTick_beat (plat := .arduino) (rx := none) d.wf rfl d.master hx)
    d.master rfl rfl rfl rfl (by rw [hrand, sendId_beat]) (by rw [hrand, stream_next]) hrep hids
    (by rw [beatId_two]; exact hids') d.heard d.kept d.sorted fun t ht => ?_
  have := d.early t ht
  rw [BitVec.le_def] at this ⊢; omega

/-- The freshly powered network. -/
def boot : HwNet 2 where
  node i := Node.init 0 (bootRand i) (.heartbeat, Vector.replicate 58 0)
    (.heartbeat, Vector.replicate 58 0)
  hist _ := []
  air := []

theorem boot_rand (i : Fin 2) : (boot.node i).rand = (bootRand i).rest := rfl

theorem boot_timer : ∀ i : Fin 2, (boot.node i).timers.heartbeat ≠ 0 ∧
    (boot.node i).timers.heartbeat < time 0 := by decide

/-- A device whose timeout has passed becomes master. -/
theorem start {net : HwNet 2} (hr : HwNet.Reach nbrs net) {i : Fin 2}
    (h1 : net.node i = boot.node i) (h2 : net.hist i = []) :
    ∃ net', HwNet.Reach nbrs net' ∧ Dev net' i 0 true ∧ OnAir net' i 0 ∧
      (∀ j, j ≠ i → net'.node j = net.node j ∧ net'.hist j = net.hist j) ∧
      ∀ x ∈ net.air, x ∈ net'.air := by
  have wf : (net.node i).WF := h1 ▸ Node.WF.init
  have hs : (net.node i).state = .slave := by rw [h1]; rfl
  have hx : (net.node i).timerExpired (time 0) = .heartbeat := by
    rw [Node.timerExpired_heartbeat wf, h1]; exact boot_timer i
  refine send_beat hr wf (Node.radioTick_takeOver (plat := .arduino) (rx := none) wf rfl hs hx)
    rfl rfl rfl rfl rfl ?_ ?_ (h := []) ?_ ?_ ?_ ?_ ?_ ?_ ?_
  · rw [h1, boot_rand]
    have : (bootRand i).rest 0 = base i := by simp [bootRand, Rand.rest]
    rw [sendId, this]; rfl
  · rw [h1, boot_rand]; exact bootRand_rest i
  · rw [h1]; exact NM.repr_init
  · intro j _
    rw [List.getD_nil]
    exact (ids_ne (other i) 0 0).2.2.2.1.symm
  · rw [List.getD_nil]
    exact (ids_ne (other i) 1 0).2.2.2.1.symm
  · rw [h2]; rfl
  · rw [h2]; intro e he; cases he
  · rw [h2]; exact List.pairwise_singleton _ _
  · rw [h2]
    intro t ht
    cases List.mem_singleton.1 ht
    decide

/-- After `k` rounds both devices are masters. -/
theorem rounds (k : Nat) (hk : k ≤ 2000000) :
    ∃ net, HwNet.Reach nbrs net ∧ ∀ i, Dev net i k true ∧ OnAir net i k := by
  have air {net net' : HwNet 2} {i k} (h : OnAir net i k) (hm : ∀ x ∈ net.air, x ∈ net'.air) :
      OnAir net' i k := by
    obtain ⟨q, f, hf, h⟩ := h
    exact ⟨q, f, hm _ hf, h⟩
  induction k with
  | zero =>
    have hb : HwNet.Boot boot := ⟨fun i => ⟨_, _, _, _, rfl⟩, fun _ => rfl, rfl⟩
    obtain ⟨n1, r1, d1, a1, k1, -⟩ := start (.boot hb) (i := 0) rfl rfl
    obtain ⟨n2, r2, d2, a2, k2, m2⟩ := start r1 (i := 1) (k1 1 (by decide)).1 (k1 1 (by decide)).2
    exact ⟨n2, r2, fun i => match i with
      | 0 => ⟨other_keeps d1 (k2 0 (by decide)), air a1 m2⟩
      | 1 => ⟨d2, a2⟩⟩
  | succ k ih =>
    obtain ⟨net, r, h⟩ := ih (by omega)
    obtain ⟨n1, r1, d1, k1, m1⟩ := hear r (h 0).1 (h 1).2
    obtain ⟨n2, r2, d2, k2, m2⟩ := hear r1 (other_keeps (h 1).1 (k1 1 (by decide))) (air (h 0).2 m1)
    obtain ⟨n3, r3, d3, a3, k3, m3⟩ := beat r2 (other_keeps d1 (k2 0 (by decide))) hk
    obtain ⟨n4, r4, d4, a4, k4, m4⟩ := beat r3 (other_keeps d2 (k3 1 (by decide))) hk
    exact ⟨n4, r4, fun i => match i with
      | 0 => ⟨other_keeps d3 (k4 0 (by decide)), air a3 m4⟩
      | 1 => ⟨d4, a4⟩⟩

end Firefly.TwoMasters
