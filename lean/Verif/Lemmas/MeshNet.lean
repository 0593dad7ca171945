import Verif.Lemmas.Mesh

/-! # Helper lemmas for meshes of many nodes -/

namespace Firefly.Props
open Spec

theorem _root_.Firefly.MeshRun.suffix {plat} {newer h : List MeshEntry} {m}
    (hr : MeshRun plat (newer ++ h) m) : ∃ m₀, MeshRun plat h m₀ := by
  induction newer generalizing m with
  | nil => exact ⟨m, hr⟩
  | cons e newer ih =>
    cases hr with
    | send _ _ h' _ => exact ih h'
    | receive _ h' _ => exact ih h'

theorem _root_.Firefly.MeshRun.transmitted_le {plat e h m} (hr : MeshRun plat (e :: h) m) :
    e.transmitted.length ≤ 1 := by
  cases hr with
  | send p r _ e => rw [(NM.send_cases e).2.1]; simp
  | receive rx _ e =>
    rcases NM.receive_cases e with ⟨-, rfl, -, -⟩ | ⟨p, -, -, -, rfl, -⟩ <;> simp

theorem length_le_of_nodup_subset {α} [DecidableEq α] {l l' : List α} (hn : l.Nodup)
    (hs : ∀ x ∈ l, x ∈ l') : l.length ≤ l'.length := by
  induction l generalizing l' with
  | nil => simp
  | cons a l ih =>
    have ha : a ∈ l' := hs a (by simp)
    have hn' := List.nodup_cons.1 hn
    have := ih (l' := l'.erase a) hn'.2 (fun x hx =>
      (List.mem_erase_of_ne (by rintro rfl; exact hn'.1 hx)).2 (hs x (by simp [hx])))
    rw [List.length_erase_of_mem ha] at this
    have : 0 < l'.length := List.length_pos_of_mem ha
    simp only [List.length_cons]
    omega

theorem eq_of_nodup_map {α β} {f : α → β} {l : List α} (h : (l.map f).Nodup) {a b : α}
    (ha : a ∈ l) (hb : b ∈ l) (e : f a = f b) : a = b := by
  induction l with
  | nil => simp at ha
  | cons x l ih =>
    rw [List.map_cons, List.nodup_cons] at h
    rcases List.mem_cons.1 ha with ha' | ha' <;> rcases List.mem_cons.1 hb with hb' | hb'
    · rw [ha', hb']
    · exact absurd (List.mem_map.2 ⟨b, hb', by rw [← e, ha']⟩) h.1
    · exact absurd (List.mem_map.2 ⟨a, ha', by rw [e, hb']⟩) h.1
    · exact ih h.2 ha' hb'

/-- Facts that hold in every reachable mesh. -/
structure NetInv {n} (s : Net n) : Prop where
  repr : ∀ i, (s.node i).Repr ((sentBy i s.sent).map (·.id))
  perm : s.sent.Perm (s.delivered ++ s.originated)
  sentOrig : ∀ x ∈ s.sent, ∃ j, (j, x.2) ∈ s.originated
  flightOrig : ∀ x ∈ s.flight, ∃ j, (j, x.2) ∈ s.originated

theorem sentBy_cons {n} (i j : Fin n) (p : Packet) (l : List (Fin n × Packet)) :
    sentBy i ((j, p) :: l) = if j = i then p :: sentBy i l else sentBy i l := by
  unfold sentBy
  by_cases h : j = i <;> simp [h]

theorem mem_sentBy {n} (i : Fin n) (p : Packet) (l : List (Fin n × Packet)) :
    p ∈ sentBy i l ↔ (i, p) ∈ l := by
  simp [sentBy]

theorem netInv_reach {n plat nbrs ok} {s : Net n} (hs : Net.Reach plat nbrs ok s) : NetInv s := by
  induction hs with
  | boot => exact ⟨fun i => by simpa [sentBy, Net.init] using NM.repr_init, by simp [Net.init],
      by simp [Net.init], by simp [Net.init]⟩
  | @step s s' k _ _ hst ih =>
    obtain ⟨hrepr, hperm, hso, hfo⟩ := ih
    cases hst with
    | originate _ i p r e =>
      obtain ⟨-, rfl, e3, -⟩ := NM.send_cases e
      refine ⟨?_, ?_, ?_, ?_⟩
      · intro j
        dsimp only
        simp only [List.map_cons, List.map_nil, List.cons_append, List.nil_append, sentBy_cons]
        by_cases hj : j = i
        · subst hj
          obtain ⟨m'', e4, hr'⟩ := (hrepr j).add _
          have := NM.add_det e3 e4
          subst this
          simpa using hr'
        · rw [if_neg hj, if_neg (fun h => hj h.symm)]
          exact hrepr j
      · simpa using (hperm.cons _).trans (List.perm_middle.symm)
      · intro x hx
        simp at hx
        rcases hx with rfl | hx
        · exact ⟨i, by simp⟩
        · obtain ⟨j, hj⟩ := hso x hx
          exact ⟨j, by simp [hj]⟩
      · intro x hx
        simp [Net.broadcast] at hx
        rcases hx with hx | ⟨a, -, rfl⟩
        · obtain ⟨j, hj⟩ := hfo x hx
          exact ⟨j, by simp [hj]⟩
        · exact ⟨i, by simp⟩
    | hear _ i p pre post hfl e =>
      have hp : ∃ j, (j, p) ∈ s.originated := hfo (i, p) (by simp [hfl])
      rcases NM.receive_cases e with ⟨rfl, rfl, rfl, -⟩ | ⟨p', e0, -, rfl, rfl, e3⟩
      · refine ⟨?_, by simpa using hperm, by simpa using hso, ?_⟩
        · intro j
          dsimp only
          by_cases hj : j = i
          · subst hj; simpa using hrepr j
          · simpa [hj] using hrepr j
        · intro x hx
          apply hfo
          simp [Net.broadcast] at hx
          rw [hfl]; simp; grind
      · simp at e0; subst e0
        refine ⟨?_, by simpa using hperm, ?_, ?_⟩
        · intro j
          dsimp only
          simp only [List.map_cons, List.map_nil, List.cons_append, List.nil_append, sentBy_cons]
          by_cases hj : j = i
          · subst hj
            obtain ⟨m'', e4, hr'⟩ := (hrepr j).add _
            have := NM.add_det e3 e4
            subst this
            simpa using hr'
          · rw [if_neg hj, if_neg (fun h => hj h.symm)]
            exact hrepr j
        · intro x hx
          simp at hx
          rcases hx with rfl | hx
          · exact hp
          · exact hso x hx
        · intro x hx
          simp [Net.broadcast] at hx
          rcases hx with hx | hx | ⟨a, -, rfl⟩
          · exact hfo x (by rw [hfl]; simp [hx])
          · exact hfo x (by rw [hfl]; simp [hx])
          · exact hp
    | lose _ pre post x hfl =>
      exact ⟨hrepr, hperm, hso, fun y hy => hfo y (by rw [hfl]; simp at hy ⊢; grind)⟩
    | duplicate _ x hx =>
      refine ⟨hrepr, hperm, hso, fun y hy => hfo y ?_⟩
      simp at hy
      rcases hy with hy | rfl
      · exact hy
      · exact hx

/-- Sender and id of each transmission. -/
abbrev senderAndId {n} (log : List (Fin n × Packet)) : List (Fin n × U16) :=
  log.map fun x => (x.1, x.2.id)

theorem originated_tail {n plat nbrs k} {s s' : Net n} (hst : Net.Step plat nbrs k s s') :
    ∃ new, s'.originated = new ++ s.originated ∧ (k = .originate ∨ new = []) := by
  cases hst with
  | originate _ i p r e => exact ⟨[_], rfl, .inl rfl⟩
  | hear _ i p pre post hfl e => exact ⟨[], rfl, .inr rfl⟩
  | lose _ pre post x hfl => exact ⟨[], rfl, .inr rfl⟩
  | duplicate _ x hx => exact ⟨[], rfl, .inr rfl⟩

theorem ids_sent_le {n} {s : Net n} (hi : NetInv s) (hn : (senderAndId s.sent).Nodup) (i : Fin n) :
    (sentBy i s.sent).length ≤ s.originated.length := by
  have h1 : ((sentBy i s.sent).map (·.id)).Nodup := by
    have : (((s.sent.filter (·.1 = i)).map fun x => (x.1, x.2.id))).Nodup :=
      List.Nodup.sublist (List.Sublist.map _ List.filter_sublist) hn
    have e : (sentBy i s.sent).map (·.id)
        = ((s.sent.filter (·.1 = i)).map fun x => (x.1, x.2.id)).map (·.2) := by
      simp [sentBy, List.map_map, Function.comp_def]
    rw [e]
    rw [List.Nodup, List.pairwise_map]
    refine List.Pairwise.imp_of_mem ?_ this
    intro a b ha hb hab h
    simp at ha hb
    exact hab (by grind)
  have h2 := length_le_of_nodup_subset (l' := ids s.originated) h1 (by
    intro x hx
    simp only [List.mem_map] at hx
    obtain ⟨p, hp, rfl⟩ := hx
    obtain ⟨j, hj⟩ := hi.sentOrig _ ((mem_sentBy i p _).1 hp)
    simp only [ids, List.mem_map]
    exact ⟨_, hj, rfl⟩)
  simpa [ids] using h2

theorem lastFive_of_short {l : List U16} (h : l.length ≤ 5) (x : U16) :
    x ∈ lastFive l ↔ x ∈ l ∨ (x = 0 ∧ l.length < 5) := by
  unfold lastFive
  rw [List.take_append, List.take_of_length_le h, List.take_replicate, List.mem_append,
    List.mem_replicate]
  constructor
  · rintro (h | ⟨h1, h2⟩)
    · exact .inl h
    · exact .inr ⟨h2, by omega⟩
  · rintro (h | ⟨h1, h2⟩)
    · exact .inl h
    · exact .inr ⟨by omega, h1⟩

/-- Two nodes in each other's range. -/
def pair : Fin 2 → List (Fin 2)
  | 0 => [1]
  | 1 => [0]

/-- The `k`-th packet of the endless stream: the ids 2..7 over and over. -/
def streamPacket (k : Nat) : Packet :=
  ⟨BitVec.ofNat 16 (2 + k % 6), .claimMaster, 0, Vector.replicate 58 0⟩

theorem streamPacket_id (k : Nat) : (streamPacket k).id.toNat = 2 + k % 6 := by
  simp [streamPacket]; omega

theorem streamPacket_add (k : Nat) : streamPacket (k + 6) = streamPacket k := by
  simp [streamPacket]

/-- Before node 1 hears stream packet `k`. -/
structure LoopA (k : Nat) (s : Net 2) : Prop where
  flight : s.flight = (List.range 6).map fun j => (1, streamPacket (k + j))
  node0 : ∃ h, (s.node 0).Repr h ∧ ∀ j, j < 5 → h.getD j 0 = (streamPacket (k + 5 - j)).id
  node1 : ∃ h, (s.node 1).Repr h ∧
    ∀ j, j < 5 → h.getD j 0 = if j < k then (streamPacket (k - 1 - j)).id else 0

/-- Before node 0 hears node 1's relay of stream packet `k`. -/
structure LoopB (k : Nat) (s : Net 2) : Prop where
  flight : s.flight =
    ((List.range 5).map fun j => (1, streamPacket (k + 1 + j))) ++ [(0, streamPacket k)]
  node0 : ∃ h, (s.node 0).Repr h ∧ ∀ j, j < 5 → h.getD j 0 = (streamPacket (k + 5 - j)).id
  node1 : ∃ h, (s.node 1).Repr h ∧
    ∀ j, j < 5 → h.getD j 0 = if j < k + 1 then (streamPacket (k + 1 - 1 - j)).id else 0

theorem loopA_step (plat : Platform) {k : Nat} {s : Net 2} (hs : LoopA k s) :
    ∃ s', Net.Step plat pair .hear s s' ∧ LoopB k s' ∧ s'.sent.length = s.sent.length + 1 := by
  obtain ⟨hf, h0, ⟨h, hr, hh⟩⟩ := hs
  have hn : (streamPacket k).id ∉ (s.node 1).cache := by
    rw [hr.mem_iff, mem_lastFive]
    rintro ⟨j, hj, e⟩
    rw [hh j hj] at e
    have e' := congrArg BitVec.toNat e
    rw [streamPacket_id] at e'
    split at e'
    · rw [streamPacket_id] at e'; omega
    · simp at e'; omega
  obtain ⟨m', e, hr'⟩ := hr.receive_new hn
  refine ⟨_, .hear s 1 (streamPacket k) [] ((List.range 5).map fun j => (1, streamPacket (k + 1 + j)))
    ?_ e, ⟨?_, ?_, ?_⟩, ?_⟩
  · rw [hf]; simp [List.range_succ_eq_map]
  · simp [Net.broadcast, pair]
  · obtain ⟨g, hg⟩ := h0; exact ⟨g, hg⟩
  · refine ⟨_, hr', ?_⟩
    intro j hj
    cases j with
    | zero => simp
    | succ j =>
      rw [List.getD_cons_succ, hh j (by omega)]
      simp only [Nat.add_lt_add_iff_right]
      split
      · congr 2; omega
      · rfl
  · simp

theorem loopB_step (plat : Platform) {k : Nat} {s : Net 2} (hs : LoopB k s) :
    ∃ s', Net.Step plat pair .hear s s' ∧ LoopA (k + 1) s' ∧
      s'.sent.length = s.sent.length + 1 := by
  obtain ⟨hf, ⟨h, hr, hh⟩, h1⟩ := hs
  have hn : (streamPacket k).id ∉ (s.node 0).cache := by
    rw [hr.mem_iff, mem_lastFive]
    rintro ⟨j, hj, e⟩
    rw [hh j hj] at e
    have e' := congrArg BitVec.toNat e
    rw [streamPacket_id, streamPacket_id] at e'
    omega
  obtain ⟨m', e, hr'⟩ := hr.receive_new hn
  refine ⟨_, .hear s 0 (streamPacket k)
    ((List.range 5).map fun j => (1, streamPacket (k + 1 + j))) [] hf e, ⟨?_, ?_, ?_⟩, ?_⟩
  · simp [Net.broadcast, pair, List.range_succ]
    rw [show k + 1 + 5 = k + 6 by omega, streamPacket_add]
  · refine ⟨_, hr', ?_⟩
    intro j hj
    cases j with
    | zero => simp only [List.getD_cons_zero]; rw [← streamPacket_add]; congr 1
    | succ j =>
      rw [List.getD_cons_succ, hh j (by omega)]
      congr 2; omega
  · obtain ⟨g, hg⟩ := h1; exact ⟨g, hg⟩
  · simp

/-- An infinite chain exists if every good state has a good successor. -/
theorem exists_chain {α} {P : α → Prop} {R : α → α → Prop} (hstep : ∀ a, P a → ∃ b, R a b ∧ P b)
    {a : α} (ha : P a) : ∃ f : Nat → α, f 0 = a ∧ ∀ k, R (f k) (f (k + 1)) := by
  let next : {a // P a} → {a // P a} := fun x =>
    ⟨(hstep x.1 x.2).choose, (hstep x.1 x.2).choose_spec.2⟩
  let g : Nat → {a // P a} := fun n => Nat.rec ⟨a, ha⟩ (fun _ x => next x) n
  exact ⟨fun n => (g n).1, rfl, fun k => (hstep (g k).1 (g k).2).choose_spec.1⟩

/-- The mesh of two nodes after node 0 has originated six packets in a row is in the loop. -/
theorem loop_reachable (plat : Platform) :
    ∃ s, Net.Reach plat pair (· = .originate) s ∧ LoopA 0 s ∧
      s.originated = (List.range 6).reverse.map fun k => (0, streamPacket k) := by
  have key : ∀ n, ∃ s : Net 2, Net.Reach plat pair (· = .originate) s ∧
      s.flight = ((List.range n).map fun j => (1, streamPacket j)) ∧
      (∃ h, (s.node 0).Repr h ∧ h = (List.range n).reverse.map fun k => (streamPacket k).id) ∧
      (s.node 1).Repr [] ∧
      s.originated = (List.range n).reverse.map fun k => (0, streamPacket k) := by
    intro n
    induction n with
    | zero => exact ⟨_, .boot, rfl, ⟨_, NM.repr_init, rfl⟩, NM.repr_init, rfl⟩
    | succ n ih =>
      obtain ⟨s, hs, hf, ⟨h, hr, hh⟩, h1, ho⟩ := ih
      have hid : randomRange plat 2 0xFFFF (fun _ => n % 6) =
          .ok ((streamPacket n).id, fun _ => n % 6) := by
        cases plat
        · rw [randomRange]
          simp only [Rand.draw]
          rw [if_neg (by decide)]
          have : n % 6 % (0xFFFF : U16).toNat = n % 6 := Nat.mod_eq_of_lt (by simp; omega)
          rw [this]
          rfl
        · rw [randomRange]
          simp only [Rand.draw]
          rw [if_neg (by decide)]
          have : n % 6 % ((0xFFFF : U16).toNat - (2 : U16).toNat) = n % 6 :=
            Nat.mod_eq_of_lt (by simp; omega)
          rw [this]
          rfl
      obtain ⟨m', e, hr'⟩ := hr.add (streamPacket n).id
      have hsend : (s.node 0).send plat (streamPacket n) (fun _ => n % 6) =
          .ok (streamPacket n, [streamPacket n], m', fun _ => n % 6) := by
        simp only [NM.send, hid, e, bind, Except.bind, pure, Except.pure]
      refine ⟨_, .step hs rfl (.originate s 0 (streamPacket n) _ hsend), ?_, ?_, ?_, ?_⟩
      · simp [Net.broadcast, hf, List.range_succ, pair]
      · refine ⟨_, hr', ?_⟩
        rw [hh]; simp [List.range_succ]
      · exact h1
      · simp [ho, List.range_succ]
  obtain ⟨s, hs, hf, ⟨h, hr, hh⟩, h1, ho⟩ := key 6
  refine ⟨s, hs, ⟨by simpa using hf, ⟨h, hr, ?_⟩, ⟨[], h1, by simp⟩⟩, ho⟩
  intro j hj
  rw [hh]
  match j, hj with
  | 0, _ => rfl
  | 1, _ => rfl
  | 2, _ => rfl
  | 3, _ => rfl
  | 4, _ => rfl

end Firefly.Props
