import Verif.Lemmas.MeshNet

/-! # Properties of the mesh layer (C05–C12) -/

namespace Firefly.Props
open Spec

/-! ## One node -/

/-- C05.  After every history, an incoming packet is delivered exactly if its id is not among
the five ids this node transmitted last (it transmits what it sends and what it delivers); the
operation never faults. -/
theorem delivered_iff_not_recent {plat h m} (hr : MeshRun plat h m) (p : Packet) :
    ∃ out m', m.receive (some p) =
      .ok (if p.id ∈ lastFive (transmittedIds h) then none else some p, out, m') := by
  by_cases hp : p.id ∈ m.cache
  · rw [if_pos ((hr.repr.mem_iff _).1 hp)]
    exact ⟨_, _, NM.receive_dup hp⟩
  · rw [if_neg (mt (hr.repr.mem_iff _).2 hp)]
    obtain ⟨m', e, -⟩ := hr.repr.receive_new hp
    exact ⟨_, _, e⟩

/-- C05.  Sending never faults either, on both builds. -/
theorem send_never_faults {plat h m} (hr : MeshRun plat h m) (p : Packet) (r : Rand) :
    ∃ p' out m' r', m.send plat p r = .ok (p', out, m', r') := by
  have : ∃ id r', randomRange plat 2 0xFFFF r = .ok (id, r') := by
    cases plat
    · exact ⟨_, _, by rw [randomRange]; exact if_neg (by decide)⟩
    · exact ⟨_, _, by rw [randomRange]; exact if_neg (by decide)⟩
  obtain ⟨id, r', e⟩ := this
  obtain ⟨m', e', -⟩ := hr.repr.add id
  exact ⟨_, _, _, _, by simp only [NM.send, e, e', bind, Except.bind, pure, Except.pure]; rfl⟩

/-- A history of three calls: send with draw 5 (id 7), hear packet 9, hear an echo of 7. -/
def exampleHistory : List MeshEntry :=
  let q : Packet := ⟨9, .claimMaster, 0, Vector.replicate 58 0⟩
  let s : Packet := ⟨7, .setEffect, 3, Vector.replicate 58 1⟩
  [⟨.receive (some s), none, []⟩, ⟨.receive (some q), some q, [q]⟩, ⟨.send { s with id := 0 }, none, [s]⟩]

example : ∃ m, MeshRun .host exampleHistory m ∧
    lastFive (transmittedIds exampleHistory) = [9, 7, 0, 0, 0] := by
  refine ⟨_, .receive _ (.receive _ (.send _ (fun _ => 5) .boot (by rfl)) (by rfl)) (by rfl), ?_⟩
  decide

/-- C06.  In every state, a receive either delivers the incoming packet and transmits exactly
that packet once, or delivers nothing, transmits nothing and changes nothing; the latter is
the case when nothing came in. -/
theorem relay_exactly_once (m : NM) (rx d out m') (e : m.receive rx = .ok (d, out, m')) :
    (∃ p, rx = some p ∧ d = some p ∧ out = [p]) ∨ (d = none ∧ out = [] ∧ m' = m) := by
  rcases NM.receive_cases e with ⟨h1, h2, h3, -⟩ | ⟨p, h1, -, h2, h3, -⟩
  · exact .inr ⟨h1, h2, h3⟩
  · exact .inl ⟨p, h1, h2, h3⟩

/-- C06.  A receive without an available packet is a no-op. -/
theorem receive_nothing (m : NM) : m.receive none = .ok (none, [], m) := rfl

example : ∃ m', NM.init.receive (some ⟨9, .claimMaster, 0, Vector.replicate 58 0⟩) =
    .ok (some ⟨9, .claimMaster, 0, Vector.replicate 58 0⟩,
      [⟨9, .claimMaster, 0, Vector.replicate 58 0⟩], m') := ⟨_, rfl⟩

/-- C07.  If a node delivers a packet whose id it transmitted before (by sending or by
delivering it), at least five transmissions lie in between. -/
theorem duplicate_needs_five {plat m} {newer between older : List MeshEntry} {e₁ e₂ : MeshEntry}
    (hr : MeshRun plat (newer ++ e₂ :: (between ++ e₁ :: older)) m)
    {p q : Packet} (hp : e₂.delivered = some p) (hq : q ∈ e₁.transmitted) (hid : q.id = p.id) :
    5 ≤ (transmittedIds between).length := by
  obtain ⟨m₂, hr₂⟩ := hr.suffix
  have hlast : p.id ∉ lastFive (transmittedIds (between ++ e₁ :: older)) := by
    cases hr₂ with
    | send _ _ h' _ => simp at hp
    | receive rx h' e =>
      rcases NM.receive_cases e with ⟨rfl, -, -, -⟩ | ⟨p', -, hn, rfl, -, -⟩
      · simp at hp
      · simp at hp; subst hp
        exact fun hm => hn ((h'.repr.mem_iff _).2 hm)
  have h1 : e₁.transmitted = [q] := by
    have hr₃ : ∃ m₁, MeshRun plat (e₁ :: older) m₁ :=
      (show MeshRun plat ((e₂ :: between) ++ (e₁ :: older)) m₂ by simpa using hr₂).suffix
    obtain ⟨m₁, hr₁⟩ := hr₃
    have := hr₁.transmitted_le
    match ht : e₁.transmitted, hq, this with
    | [x], hq, _ => simp at hq; rw [hq]
  apply Nat.le_of_not_lt
  intro hlt
  apply hlast
  rw [mem_lastFive]
  refine ⟨(transmittedIds between).length, hlt, ?_⟩
  simp [transmittedIds, h1, List.getD] at hlt ⊢
  simp [hid]

/-- C08.  A packet a node has sent is not delivered back to it, whoever echoes it and in
whatever form, as long as fewer than five other transmissions of that node follow. -/
theorem own_packet_ignored {plat m} {since older : List MeshEntry} {e : MeshEntry}
    (hr : MeshRun plat (since ++ e :: older) m) (p q : Packet)
    (hsent : q ∈ e.transmitted) (hid : q.id = p.id)
    (hfew : (transmittedIds since).length < 5) :
    ∃ m', m.receive (some p) = .ok (none, [], m') := by
  obtain ⟨out, m', e'⟩ := delivered_iff_not_recent hr p
  by_cases hmem : p.id ∈ lastFive (transmittedIds (since ++ e :: older))
  · exact ⟨m, NM.receive_dup ((hr.repr.mem_iff _).2 hmem)⟩
  · exfalso
    rw [if_neg hmem] at e'
    have hr' := MeshRun.receive (some p) hr e'
    have := duplicate_needs_five (newer := []) (between := since) (older := older) hr' rfl hsent hid
    omega

example : ∃ m m', MeshRun .arduino
    ([⟨.receive none, none, []⟩] ++
      ⟨.send ⟨0, .claimMaster, 0, Vector.replicate 58 0⟩, none,
        [⟨7, .claimMaster, 0, Vector.replicate 58 0⟩]⟩ :: []) m ∧
    m.receive (some ⟨7, .claimMaster, 0, Vector.replicate 58 0⟩) = .ok (none, [], m') :=
  ⟨_, _, .receive _ (.send _ (fun _ => 5) .boot (by rfl)) (by rfl), by rfl⟩

/-! ## Many nodes -/

/-- C09, first part.  If at most five packets with distinct ids are ever originated, no node
ever transmits the same id twice, whatever the topology and however the medium loses,
duplicates, delays and reorders. -/
theorem flood_no_repeat {n plat nbrs ok} {s : Net n} (hs : Net.Reach plat nbrs ok s)
    (hfive : s.originated.length ≤ 5) (hdistinct : (ids s.originated).Nodup) :
    (senderAndId s.sent).Nodup := by
  induction hs with
  | boot => simp [Net.init]
  | @step s s' k hr hk hst ih =>
    obtain ⟨new, hnew, -⟩ := originated_tail hst
    have h5 : s.originated.length ≤ 5 := by rw [hnew] at hfive; simp at hfive; omega
    have hd : (ids s.originated).Nodup := by
      rw [hnew] at hdistinct
      simp only [ids, List.map_append] at hdistinct
      exact (List.nodup_append.1 hdistinct).2.1
    have ih := ih h5 hd
    have hi := netInv_reach hr
    cases hst with
    | originate _ i p r e =>
      obtain ⟨-, rfl, e3, -⟩ := NM.send_cases e
      simp only [List.map_cons, List.map_nil, List.cons_append, List.nil_append, List.nodup_cons]
      refine ⟨?_, ih⟩
      intro hm
      simp only [List.mem_map] at hm
      obtain ⟨x, hx, hxe⟩ := hm
      obtain ⟨j, hj⟩ := hi.sentOrig x hx
      simp only [ids, List.map_cons, List.nodup_cons] at hdistinct
      apply hdistinct.1
      simp only [List.mem_map]
      exact ⟨_, hj, by have := congrArg Prod.snd hxe; simpa using this⟩
    | hear _ i p pre post hfl e =>
      rcases NM.receive_cases e with ⟨rfl, rfl, rfl, -⟩ | ⟨p', e0, hn, rfl, rfl, e3⟩
      · simpa using ih
      · simp at e0; subst e0
        simp only [List.map_cons, List.map_nil, List.cons_append, List.nil_append, List.nodup_cons]
        refine ⟨?_, ih⟩
        intro hm
        apply hn
        rw [(hi.repr i).mem_iff]
        rw [lastFive_of_short (by simpa using Nat.le_trans (ids_sent_le hi ih i) h5)]
        left
        simp only [List.mem_map] at hm ⊢
        obtain ⟨x, hx, hxe⟩ := hm
        simp only [Prod.mk.injEq] at hxe
        refine ⟨x.2, (mem_sentBy _ _ _).2 ?_, hxe.2⟩
        rw [← hxe.1]; exact hx
    | lose _ pre post x hfl => exact ih
    | duplicate _ x hx => exact ih

/-- C09, second part.  Under the same condition the total number of transmissions is at most
(number of originated packets) × (number of nodes): the flood dies out. -/
theorem flood_bounded {n plat nbrs ok} {s : Net n} (hs : Net.Reach plat nbrs ok s)
    (hfive : s.originated.length ≤ 5) (hdistinct : (ids s.originated).Nodup) :
    s.sent.length ≤ n * s.originated.length := by
  have hn := flood_no_repeat hs hfive hdistinct
  have hi := netInv_reach hs
  have h := length_le_of_nodup_subset
    (l' := (List.finRange n).flatMap fun i => (ids s.originated).map fun x => (i, x)) hn (by
      intro x hx
      simp only [List.mem_map] at hx
      obtain ⟨y, hy, rfl⟩ := hx
      obtain ⟨j, hj⟩ := hi.sentOrig y hy
      simp only [List.mem_flatMap, List.mem_finRange, true_and, List.mem_map, ids, Prod.mk.injEq]
      exact ⟨y.1, y.2.id, ⟨_, hj, rfl⟩, rfl, rfl⟩)
  simpa [List.length_flatMap, ids, List.map_const'] using h

/-- C10.  With at most five packets of distinct non-zero ids and a medium that loses nothing,
once nothing is in the air any more every node connected to the originator (other than the
originator itself) has delivered the packet to its application exactly once, and the originator
has not. -/
theorem flood_reaches_all {n plat nbrs} {s : Net n} (hs : Net.Reach plat nbrs (· ≠ .lose) s)
    (hquiet : s.flight = [])
    (hfive : s.originated.length ≤ 5) (hdistinct : (ids s.originated).Nodup)
    (hnz : (0 : U16) ∉ ids s.originated)
    {j i : Fin n} {p : Packet} (hj : (j, p) ∈ s.originated) (hc : Connected nbrs j i) :
    s.delivered.count (i, p) = if i = j then 0 else 1 := by
  -- every neighbour of a transmitter will hear, or has transmitted, the packet
  have cover : ∀ x ∈ s.sent, ∀ k ∈ nbrs x.1, (k, x.2) ∈ s.flight ∨ (k, x.2) ∈ s.sent := by
    clear hquiet hj hc
    induction hs with
    | boot => simp [Net.init]
    | @step s s' k hr hk hst ih =>
      obtain ⟨new, hnew, -⟩ := originated_tail hst
      have h5 : s.originated.length ≤ 5 := by rw [hnew] at hfive; simp at hfive; omega
      have hd : (ids s.originated).Nodup := by
        rw [hnew] at hdistinct
        simp only [ids, List.map_append] at hdistinct
        exact (List.nodup_append.1 hdistinct).2.1
      have hz : (0 : U16) ∉ ids s.originated := by
        rw [hnew] at hnz
        simp only [ids, List.map_append, List.mem_append, not_or] at hnz
        exact hnz.2
      have ih := ih h5 hd hz
      have hi := netInv_reach hr
      have hnr := flood_no_repeat hr h5 hd
      cases hst with
      | originate _ i p r e =>
        obtain ⟨-, rfl, e3, -⟩ := NM.send_cases e
        intro x hx k hk
        simp at hx
        rcases hx with rfl | hx
        · left; simp [Net.broadcast, hk]
        · rcases ih x hx k hk with h | h
          · left; simp [Net.broadcast, h]
          · right; simp [h]
      | hear _ i p pre post hfl e =>
        rcases NM.receive_cases e with ⟨rfl, rfl, rfl, hdup⟩ | ⟨p', e0, hn, rfl, rfl, e3⟩
        · have hin : (i, p) ∈ s.sent := by
            have h1 := (hi.repr i).mem_iff p.id |>.1 (hdup p rfl)
            rw [lastFive_of_short (by simpa using Nat.le_trans (ids_sent_le hi hnr i) h5)] at h1
            obtain ⟨a, ha⟩ := hi.flightOrig (i, p) (by simp [hfl])
            have hpid : p.id ∈ ids s.originated := by
              simp only [ids, List.mem_map]; exact ⟨_, ha, rfl⟩
            rcases h1 with h1 | ⟨h1, -⟩
            · simp only [List.mem_map] at h1
              obtain ⟨q, hq, hqid⟩ := h1
              have hq' := (mem_sentBy _ _ _).1 hq
              obtain ⟨b, hb⟩ := hi.sentOrig _ hq'
              have : ((a, p) : Fin n × Packet) = (b, q) :=
                eq_of_nodup_map hd ha hb hqid.symm
              simp only [Prod.mk.injEq] at this
              rw [this.2]; exact hq'
            · exact absurd (h1 ▸ hpid) hz
          intro x hx k hk
          simp at hx
          rcases ih x hx k hk with h | h
          · rw [hfl] at h
            simp at h
            rcases h with h | ⟨rfl, h⟩ | h
            · left; simp [Net.broadcast, h]
            · right; rw [h]; simpa using hin
            · left; simp [Net.broadcast, h]
          · right; simpa using h
        · simp at e0; subst e0
          intro x hx k hk
          simp at hx
          rcases hx with rfl | hx
          · left; simp [Net.broadcast, hk]
          · rcases ih x hx k hk with h | h
            · rw [hfl] at h
              simp at h
              rcases h with h | ⟨rfl, h⟩ | h
              · left; simp [Net.broadcast, h]
              · right; simp [h]
              · left; simp [Net.broadcast, h]
            · right; simp [h]
      | lose _ pre post x hfl => exact absurd rfl hk
      | duplicate _ x hx =>
        intro y hy k hk
        rcases ih y hy k hk with h | h
        · left; simp [h]
        · right; exact h
  have hi := netInv_reach hs
  have hnr := flood_no_repeat hs hfive hdistinct
  have hin : (i, p) ∈ s.sent := by
    induction hc with
    | refl => exact hi.perm.symm.subset (by simp [hj])
    | hop _ hk ih =>
      rcases cover _ ih _ hk with h | h
      · rw [hquiet] at h; simp at h
      · exact h
  have hnd : s.sent.Nodup := by
    rw [List.Nodup, List.pairwise_map] at hnr
    exact hnr.imp fun h e => h (by rw [e])
  have hnd' := hi.perm.nodup_iff.1 hnd
  have horig : (i, p) ∈ s.originated ↔ i = j := by
    constructor
    · intro h
      exact congrArg Prod.fst (eq_of_nodup_map hdistinct h hj rfl)
    · rintro rfl; exact hj
  have hmem := hi.perm.subset hin
  rw [List.mem_append] at hmem
  have hdis := (List.nodup_append.1 hnd').2.2
  split
  · rename_i hij
    apply List.count_eq_zero_of_not_mem
    intro hd
    exact hdis _ hd _ (horig.2 hij) rfl
  · rename_i hij
    rcases hmem with h | h
    · have h1 := List.nodup_iff_count.1 (List.nodup_append.1 hnd').1 (i, p)
      have h2 := List.count_pos_iff.2 h
      omega
    · exact absurd (horig.1 h) hij

/-! ### Non-vacuity of C09 and C10: a lossless run on a line of three nodes -/

/-- Three nodes in a line: 0 – 1 – 2. -/
def lineOfThree : Fin 3 → List (Fin 3)
  | 0 => [1]
  | 1 => [0, 2]
  | 2 => [1]

/-- The packet that node 0 originates in the example below. -/
def examplePacket : Packet := ⟨7, .setEffect, 3, Vector.replicate 58 1⟩

/-- Node 0 originates a packet; 1 relays it; 0 ignores the echo, 2 delivers and relays it; 1
ignores the echo.  Afterwards nothing is in the air and all hypotheses of `flood_reaches_all`
hold. -/
example : ∃ s : Net 3, Net.Reach .host lineOfThree (· ≠ .lose) s ∧ s.flight = [] ∧
    s.originated = [(0, examplePacket)] ∧ s.originated.length ≤ 5 ∧ (ids s.originated).Nodup ∧
    (0 : U16) ∉ ids s.originated ∧ Connected lineOfThree 0 2 ∧
    s.delivered = [(2, examplePacket), (1, examplePacket)] := by
  refine ⟨_, .step (k := .hear) (.step (k := .hear) (.step (k := .hear) (.step (k := .hear)
    (.step (k := .originate) .boot (by decide)
      (.originate _ 0 examplePacket (fun _ => 5) rfl)) (by decide)
      (.hear _ 1 examplePacket [] [] rfl rfl)) (by decide)
      (.hear _ 0 examplePacket [] [(2, examplePacket)] rfl rfl)) (by decide)
      (.hear _ 2 examplePacket [] [] rfl rfl)) (by decide)
      (.hear _ 1 examplePacket [] [] rfl rfl), ?_, ?_, ?_, ?_, ?_, ?_, ?_⟩
  · rfl
  · rfl
  · decide
  · decide
  · decide
  · exact .hop (.hop .refl (by decide : (1 : Fin 3) ∈ lineOfThree 0)) (by decide)
  · rfl

/-! ### C11: with six ids in flight traffic never stops -/

/-- C11, refuted.  Six originated packets with distinct non-zero ids suffice for endless
traffic between two nodes in mutual range: there is an infinite sequence of receptions, each
of a packet in flight (nothing lost, nothing duplicated), every one of which causes another
transmission. -/
theorem flood_can_run_forever (plat : Platform) :
    ∃ f : Nat → Net 2,
      Net.Reach plat pair (· = .originate) (f 0) ∧
      (f 0).originated.length = 6 ∧ (ids (f 0).originated).Nodup ∧ 0 ∉ ids (f 0).originated ∧
      ∀ k, Net.Step plat pair .hear (f k) (f (k + 1)) ∧
        (f (k + 1)).sent.length = (f k).sent.length + 1 := by
  obtain ⟨s, hs, hl, ho⟩ := loop_reachable plat
  obtain ⟨f, hf0, hf⟩ := exists_chain (P := fun s => (∃ k, LoopA k s) ∨ ∃ k, LoopB k s)
    (R := fun s s' => Net.Step plat pair .hear s s' ∧ s'.sent.length = s.sent.length + 1)
    (by
      rintro a (⟨k, h⟩ | ⟨k, h⟩)
      · obtain ⟨b, h1, h2, h3⟩ := loopA_step plat h
        exact ⟨b, ⟨h1, h3⟩, .inr ⟨_, h2⟩⟩
      · obtain ⟨b, h1, h2, h3⟩ := loopB_step plat h
        exact ⟨b, ⟨h1, h3⟩, .inl ⟨_, h2⟩⟩)
    (.inl ⟨0, hl⟩)
  refine ⟨f, hf0 ▸ hs, ?_, ?_, ?_, hf⟩
  · rw [hf0, ho]; rfl
  · rw [hf0, ho]; decide
  · rw [hf0, ho]; decide

/-! ### C12: originated ids -/

/-- C12 (Arduino build).  Every packet a node originates gets an id in [2, 65534], and a
freshly booted neighbour that hears it first delivers it. -/
theorem originated_id_fresh (m : NM) (p p' : Packet) (r r' : Rand) (out m')
    (e : m.send .arduino p r = .ok (p', out, m', r')) :
    2 ≤ p'.id.toNat ∧ p'.id.toNat ≤ 65534 ∧
      ∃ out' m'', NM.init.receive (some p') = .ok (some p', out', m'') := by
  obtain ⟨-, -, -, h⟩ := NM.send_cases e
  rw [randomRange] at h
  rw [if_neg (by decide)] at h
  simp only [Except.ok.injEq, Prod.mk.injEq] at h
  have hid : p'.id.toNat = (2 + r.draw.1 % 65533) % 65536 := by
    rw [← h.1]; rfl
  have hlt : r.draw.1 % 65533 < 65533 := Nat.mod_lt _ (by decide)
  refine ⟨by omega, by omega, ?_⟩
  obtain ⟨m'', e', -⟩ := NM.repr_init.receive_new (p := p') (by
    rw [NM.repr_init.mem_iff, mem_lastFive]
    rintro ⟨k, -, hk⟩
    simp at hk
    rw [← hk] at hid
    simp at hid
    omega)
  exact ⟨_, _, e'⟩

/-- C12, refuted for the host build.  There is a draw with which a node originates a packet
that every freshly booted neighbour ignores. -/
theorem host_originates_ignored_id :
    ∃ (p p' : Packet) (r r' : Rand) (out : List Packet) (m' : NM),
      NM.init.send .host p r = .ok (p', out, m', r') ∧
      NM.init.receive (some p') = .ok (none, [], NM.init) :=
  ⟨⟨0, .claimMaster, 0, Vector.replicate 58 0⟩, _, fun _ => 65534, _, _, _, rfl, rfl⟩

/-- C12 (host build), the precise range: id 0 or an id of at least 2, never 1. -/
theorem host_originated_id_range (m : NM) (p p' : Packet) (r r' : Rand) (out m')
    (e : m.send .host p r = .ok (p', out, m', r')) :
    p'.id.toNat = 0 ∧ r.draw.1 % 65535 = 65534 ∨
      2 ≤ p'.id.toNat ∧ p'.id.toNat = 2 + r.draw.1 % 65535 := by
  obtain ⟨-, -, -, h⟩ := NM.send_cases e
  rw [randomRange] at h
  rw [if_neg (by decide)] at h
  simp only [Except.ok.injEq, Prod.mk.injEq] at h
  have hid : p'.id.toNat = (2 + r.draw.1 % 65535) % 65536 := by
    rw [← h.1]; rfl
  omega

example : ∃ p' r' out m', NM.init.send .arduino ⟨0, .claimMaster, 0, Vector.replicate 58 0⟩
    (fun _ => 100) = .ok (p', out, m', r') ∧ p'.id = 102 := ⟨_, _, _, _, rfl, by decide⟩

end Firefly.Props
