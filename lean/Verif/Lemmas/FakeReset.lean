import Verif.Lemmas.FakeCourse

/-! # The network of the integration tests when devices are reset -/

namespace Firefly
open Spec

/-- What is true of every device, also of one just made. -/
structure Node.Sound0 (s : Node) : Prop where
  wf : s.WF
  rem : s.nm.Repr (s.sent.map (·.id)).reverse

namespace Node

theorem Sound.zero {s : Node} (h : s.Sound) : s.Sound0 := ⟨h.wf, h.rem⟩

theorem Sound0.ran {s : Node} (h : s.Sound0) (hr : s.tickRun = true) : s.Sound := ⟨h.wf, h.rem, hr⟩

theorem Sound0.radioTick {plat now rx} {s s' : Node} (h : s.Sound0)
    (hc : TickCase plat now rx s s') : s'.Sound0 := by
  obtain ⟨l, h1, h2⟩ := hc.grows
  refine ⟨hc.wf h.wf, ?_⟩
  rw [h1, h2, List.map_append, List.reverse_append]
  exact push_all h.rem l

theorem Sound0.delivered {s : Node} (h : s.Sound0) (p : Packet) :
    s.delivered (some p) = if p.id ∈ memory s then none else some p := by
  simp only [Node.delivered]
  have : p.id ∈ s.nm.cache.toList ↔ p.id ∈ memory s := by
    rw [Vector.mem_toList_iff, h.rem.mem_iff]; rfl
  simp only [this]

theorem Sound0.known {s : Node} (h : s.Sound0) {rx} (hk : Known s rx) : s.delivered rx = none := by
  cases rx with
  | none => rfl
  | some p => rw [h.delivered, if_pos (hk p rfl)]

theorem Sound0.unknown {s : Node} (h : s.Sound0) {p : Packet} (hk : p.id ∉ memory s) :
    s.delivered (some p) = some p := by
  rw [h.delivered, if_neg hk]

/-- The halves of a `Tick`. -/
theorem Sound0.tick {now rx} {s s' : Node} (h : s.Sound0)
    (ht : s.tick .host now rx now rx = .ok s') :
    ∃ s₁, TickCase .host now rx s s₁ ∧ s₁.Sound0 ∧
      (s' = { s₁ with tickRun := true } ∨
        ∃ s₂, TickCase .host now rx s₁ s₂ ∧ s₂.Sound0 ∧ s' = { s₂ with tickRun := true }) := by
  obtain ⟨s₁, h1, h2⟩ := Node.tick_eq_ops.1 ht
  have c1 := Node.radioTick_cases h.wf h1
  have k1 := h.radioTick c1
  refine ⟨s₁, c1, k1, ?_⟩
  rcases h2 with ⟨_, h2⟩ | ⟨_, s₂, h2, h3⟩
  · exact .inl (Except.ok.inj h2).symm
  · have c2 := Node.radioTick_cases k1.wf h2
    exact .inr ⟨s₂, c2, k1.radioTick c2, (Except.ok.inj h3).symm⟩

theorem Sound0.after {now rx} {s s' : Node} (h : s.Sound0)
    (ht : s.tick .host now rx now rx = .ok s') : s'.Sound := by
  obtain ⟨s₁, _, k1, e | ⟨s₂, _, k2, e⟩⟩ := h.tick ht
  · subst e; exact ⟨⟨k1.wf.1, k1.wf.2, k1.wf.3⟩, k1.rem, rfl⟩
  · subst e; exact ⟨⟨k2.wf.1, k2.wf.2, k2.wf.3⟩, k2.rem, rfl⟩

/-- A slave that hears nothing new before its deadline does nothing. -/
theorem Sound0.slave_quiet {now rx} {s s' : Node} (h : s.Sound0) (hs : s.state = .slave)
    (hk : Known s rx) (hT : now ≤ s.timers.heartbeat) (ht : s.tick .host now rx now rx = .ok s') :
    s' = { s with tickRun := true } := by
  have key : ∀ {s' : Node}, TickCase .host now rx s s' → s' = s := by
    intro s' c
    have hd := h.known hk
    have he : s.timerExpired now ≠ .heartbeat := by
      rw [Ne, timerExpired_heartbeat h.wf]
      rintro ⟨_, e⟩
      rw [BitVec.lt_def] at e; rw [BitVec.le_def] at hT; omega
    cases c <;> simp_all
  obtain ⟨s₁, c1, k1, e | ⟨s₂, c2, _, e⟩⟩ := h.tick ht
  · have := key c1; subst this; exact e
  · have := key c1; subst this
    have := key c2; subst this; exact e

/-- A slave that hears something new passes it on and stays a slave. -/
theorem Sound0.slave_hears {now} {p : Packet} {s s' : Node} (h : s.Sound0)
    (hnow : now.toNat + 255000 < 2 ^ 32) (hs : s.state = .slave) (hk : p.id ∉ memory s)
    (hT : now ≤ s.timers.heartbeat ∨ p.type = .heartbeat ∨ p.type = .claimMaster)
    (ht : s.tick .host now (some p) now (some p) = .ok s') :
    s'.state = .slave ∧ s'.sent = s.sent ++ [p] ∧
      (s'.timers.heartbeat = s.timers.heartbeat ∧ ¬ (p.type = .heartbeat ∨ p.type = .claimMaster) ∨
        now.toNat + 5000 ≤ s'.timers.heartbeat.toNat ∧
          s'.timers.heartbeat.toNat < now.toNat + 7000) := by
  obtain ⟨s₁, c1, k1, h2⟩ := h.tick ht
  have hd := h.unknown hk
  have key : s₁.state = .slave ∧ s₁.sent = s.sent ++ [p] ∧
      (s₁.timers.heartbeat = s.timers.heartbeat ∧
        ¬ (p.type = .heartbeat ∨ p.type = .claimMaster) ∨
        now.toNat + 5000 ≤ s₁.timers.heartbeat.toNat ∧
          s₁.timers.heartbeat.toNat < now.toNat + 7000) := by
    have arm : ∀ n, now.toNat + 5000 ≤ (now + BitVec.ofNat 32 (5000 + n % 2000)).toNat ∧
        (now + BitVec.ofNat 32 (5000 + n % 2000)).toNat < now.toNat + 7000 := by
      intro n
      rw [timeout_toNat hnow]
      omega
    clear h2
    cases c1 with
    | slaveQuiet e | masterQuiet e | takeOver e | beat e | change e | «repeat» e =>
      rw [hd] at e; cases e
    | electionWon _ _ e | electionLost _ _ e | masterClaim _ _ e =>
      rw [hs] at e; cases e
    | masterEffect _ _ e | masterControl _ _ e =>
      rw [hs] at e; cases e
    | slaveHeartbeat q e | slaveClaim q e =>
      rw [hd] at e; cases e
      rw [armSlaveTimeout_eq]
      exact ⟨hs, rfl, .inr (arm _)⟩
    | slaveEffect q e _ hp | slaveControl q e _ hp | other q _ _ e hp =>
      rw [hd] at e; cases e
      exact ⟨hs, rfl, .inl ⟨rfl, by rw [hp]; simp⟩⟩
  obtain ⟨e1, e2, e3⟩ := key
  have hk1 : Known s₁ (some p) := by
    intro q hq
    cases hq
    exact memory_recent e2 (by simp) (by simp)
  have hT1 : now ≤ s₁.timers.heartbeat := by
    rw [BitVec.le_def]
    rcases e3 with ⟨e, hne⟩ | e
    · rcases hT with hT | hT
      · rw [e]; exact BitVec.le_def.1 hT
      · exact absurd hT hne
    · omega
  rcases h2 with e | ⟨s₂, c2, _, e⟩
  · subst e; exact ⟨e1, e2, e3⟩
  · have : s₂ = s₁ := by
      have hd := k1.known hk1
      have he : s₁.timerExpired now ≠ .heartbeat := by
        rw [Ne, timerExpired_heartbeat k1.wf]
        rintro ⟨_, e⟩
        rw [BitVec.lt_def] at e; rw [BitVec.le_def] at hT1; omega
      clear e
      cases c2 <;> simp_all
    subst this
    subst e
    exact ⟨e1, e2, e3⟩

/-- When a device last saw the effect change. -/
theorem TickCase.seen {plat now rx} {s s' : Node} (h : TickCase plat now rx s s') :
    s'.effectChangeSeenAt = s.effectChangeSeenAt ∨ s'.effectChangeSeenAt = now := by
  cases h with
  | slaveEffect =>
    simp only [afterSlaveEffect]
    split
    · exact .inr rfl
    · exact .inl rfl
  | slaveControl => exact .inr rfl
  | _ =>
    left
    first
      | rfl
      | (rw [armSlaveTimeout_eq]; rfl)
      | (unfold afterBeginSlave; rw [armSlaveTimeout_eq]; rfl)

theorem tick_seen {now rx} {s s' : Node} (h : s.Sound0)
    (ht : s.tick .host now rx now rx = .ok s') :
    s'.effectChangeSeenAt = s.effectChangeSeenAt ∨ s'.effectChangeSeenAt = now := by
  obtain ⟨s₁, c1, k1, e | ⟨s₂, c2, k2, e⟩⟩ := h.tick ht
  · subst e; exact c1.seen
  · subst e
    rcases c2.seen with e | e
    · rcases c1.seen with e' | e'
      · exact .inl (e.trans e')
      · exact .inr (e.trans e')
    · exact .inr e

/-- How far away the deadline of a slave is. -/
theorem TickCase.near {plat now rx} {s s' : Node} (h : TickCase plat now rx s s') {B : Nat}
    (hw : now.toNat + 255000 < 2 ^ 32) (hB : now.toNat + 7000 ≤ B)
    (hs : s.state = .slave → s.timers.heartbeat.toNat < B) :
    s'.state = .slave → s'.timers.heartbeat.toNat < B := by
  have arm : ∀ n, (now + BitVec.ofNat 32 (5000 + n % 2000)).toNat < B := by
    intro n
    rw [timeout_toNat hw]
    omega
  cases h with
  | slaveQuiet | slaveEffect | slaveControl | other => exact hs
  | masterQuiet _ e | beat _ e | change _ e | «repeat» _ e =>
    intro e'
    have e' : s.state = .slave := e'
    rw [e] at e'; cases e'
  | electionWon _ _ e | masterEffect _ _ e | masterControl _ _ e =>
    intro e'
    have e' : s.state = .slave := e'
    rw [e] at e'; cases e'
  | takeOver => exact fun e => by cases e
  | slaveHeartbeat | slaveClaim => rw [armSlaveTimeout_eq]; exact fun _ => arm _
  | electionLost | masterClaim =>
    unfold afterBeginSlave
    rw [armSlaveTimeout_eq]
    exact fun _ => arm _

theorem tick_near {now rx} {s s' : Node} (h : s.Sound0)
    (ht : s.tick .host now rx now rx = .ok s') {B : Nat}
    (hw : now.toNat + 255000 < 2 ^ 32) (hB : now.toNat + 7000 ≤ B)
    (hs : s.state = .slave → s.timers.heartbeat.toNat < B) :
    s'.state = .slave → s'.timers.heartbeat.toNat < B := by
  obtain ⟨s₁, c1, k1, e | ⟨s₂, c2, k2, e⟩⟩ := h.tick ht
  · subst e; exact c1.near hw hB hs
  · subst e; exact c2.near hw hB (c1.near hw hB hs)

end Node

namespace FakeNet

/-! ### Sums over the devices -/

/-- The sum of `g` over all devices. -/
def tot {n} (g : Fin n → Nat) : Nat := ((List.finRange n).map g).sum

theorem sum_le {α} {l : List α} {g g' : α → Nat} {c : Nat} (h : ∀ i ∈ l, g i ≤ g' i + c) :
    (l.map g).sum ≤ (l.map g').sum + l.length * c := by
  induction l with
  | nil => simp
  | cons a l ih =>
    have h1 := h a (by simp)
    have h2 := ih fun i hi => h i (List.mem_cons_of_mem _ hi)
    simp only [List.map_cons, List.sum_cons, List.length_cons, Nat.add_mul, Nat.one_mul]
    omega

theorem tot_le {n} {g g' : Fin n → Nat} (h : ∀ i, g i ≤ g' i) : tot g ≤ tot g' := by
  have := sum_le (l := List.finRange n) (c := 0) fun i _ => h i
  simpa [tot] using this

theorem tot_add {n} {g g' : Fin n → Nat} {c : Nat} (h : ∀ i, g i ≤ g' i + c) :
    tot g ≤ tot g' + n * c := by
  have := sum_le (l := List.finRange n) (c := c) fun i _ => h i
  rwa [List.length_finRange] at this

theorem tot_bound {n} {g : Fin n → Nat} {c : Nat} (h : ∀ i, g i ≤ c) : tot g ≤ n * c := by
  have h0 : ∀ l : List (Fin n), (l.map fun _ => 0).sum = 0 := by
    intro l
    induction l with
    | nil => rfl
    | cons a l ih => simp [ih]
  have := tot_add (g := g) (g' := fun _ => 0) (c := c) (by simpa using h)
  unfold tot at this ⊢
  rwa [h0, Nat.zero_add] at this

theorem sum_drop {α} {l : List α} (nd : l.Nodup) {g g' : α → Nat} {k : α}
    (hk : k ∈ l) (h1 : g k = g' k + 1) (h : ∀ i, i ≠ k → g i = g' i) :
    (l.map g).sum = (l.map g').sum + 1 := by
  induction l with
  | nil => cases hk
  | cons a l ih =>
    obtain ⟨ha, nd⟩ := List.nodup_cons.1 nd
    rcases List.mem_cons.1 hk with rfl | hk
    · have : l.map g = l.map g' := List.map_congr_left fun i hi => h i fun e => ha (e ▸ hi)
      simp only [List.map_cons, List.sum_cons, h1, this]
      omega
    · simp only [List.map_cons, List.sum_cons, ih nd hk, h a fun e => ha (e ▸ hk)]
      omega

theorem tot_drop {n} {g g' : Fin n → Nat} {k : Fin n} (h1 : g k = g' k + 1)
    (h : ∀ i, i ≠ k → g i = g' i) : tot g = tot g' + 1 :=
  sum_drop (List.nodup_finRange n) (List.mem_finRange k) h1 h

theorem tot_congr {n} {g g' : Fin n → Nat} (h : ∀ i, g i = g' i) : tot g = tot g' := by
  rw [funext h]

/-- 1 if there is a packet. -/
def bit (o : Option Packet) : Nat := if o.isSome then 1 else 0

theorem bit_le (o) : bit o ≤ 1 := by unfold bit; split <;> omega

/-- How many packets will still be on their way: those that wait, the one the devices hear next, and
those that device `i` may still pass on, `u i` of them. -/
def pend {n} (net : FakeNet n) (u : Fin n → Nat) : Nat :=
  tot (fun i => bit (net.radio i).sent + u i) + bit net.packet

theorem pend_taken {n} {net net' : FakeNet n} {rx} (r : Round net net' rx) (u : Fin n → Nat) :
    net'.pend u = tot fun i => bit (Waiting net net' i) + u i := by
  unfold pend
  rcases r.taken with ⟨h1, h2, h3⟩ | ⟨k, p, h1, h2, h3, h4⟩
  · rw [h2]
    exact tot_congr fun i => by rw [h1, h3]
  · rw [h3]
    symm
    apply tot_drop (k := k)
    · rw [h2, h4, if_pos rfl]
      show 1 + u k = 0 + u k + 1
      omega
    · intro i hi
      rw [h4, if_neg hi]

/-! ### Slaves pass packets on -/

/-- A device that will pass on at most `v` of the packets with the numbers `S`, having passed on the
others last. -/
def Passing (s : Node) (S : List U16) (v : Nat) : Prop :=
  ∃ l m : List U16, s.sent.map (·.id) = l ++ m ∧ m.Nodup ∧ m ⊆ S ∧ S.length ≤ v + m.length ∧
    v ≤ S.length

theorem Passing.start (s : Node) (S : List U16) : Passing s S S.length :=
  ⟨s.sent.map (·.id), [], by simp, List.nodup_nil, by simp, by simp, Nat.le_refl _⟩

theorem Passing.more {s S v} (h : Passing s S v) (T : List U16) :
    Passing s (S ++ T) (v + T.length) := by
  obtain ⟨l, m, h1, h2, h3, h4, h5⟩ := h
  exact ⟨l, m, h1, h2, fun x hx => List.mem_append_left _ (h3 hx), by
    rw [List.length_append]; omega, by rw [List.length_append]; omega⟩

theorem Passing.same {s s' : Node} {S v} (h : Passing s S v) (e : s'.sent = s.sent) :
    Passing s' S v := by
  unfold Passing; rw [e]; exact h

theorem nodup_length {l l' : List U16} (h : l.Nodup) (hs : l ⊆ l') : l.length ≤ l'.length := by
  induction l generalizing l' with
  | nil => simp
  | cons a l ih =>
    obtain ⟨ha, nd⟩ := List.nodup_cons.1 h
    have hal : a ∈ l' := hs (by simp)
    have := ih nd (l' := l'.erase a) fun x hx =>
      (List.mem_erase_of_ne (by rintro rfl; exact ha hx)).2 (hs (List.mem_cons_of_mem _ hx))
    rw [List.length_erase_of_mem hal] at this
    have := List.length_pos_of_mem hal
    rw [List.length_cons]; omega

theorem Passing.le {s S v} (h : Passing s S v) : v ≤ S.length := by
  obtain ⟨_, _, _, _, _, _, h⟩ := h; exact h

theorem memory_recent_ids {s : Node} {l m : List U16} {x : U16} (h : s.sent.map (·.id) = l ++ m)
    (hm : m.length ≤ 5) (hx : x ∈ m) : x ∈ memory s := by
  unfold memory
  rw [h, List.reverse_append, mem_lastFive]
  obtain ⟨k, hk, e⟩ := List.mem_iff_getElem.1 (List.mem_reverse.2 hx)
  have hk' : k < m.length := by simpa using hk
  refine ⟨k, by omega, ?_⟩
  rw [List.getD_eq_getElem?_getD, List.getElem?_append_left hk, List.getElem?_eq_getElem hk]
  exact e

/-- What a slave that is not due does. -/
theorem Passing.tick {now rx} {s s' : Node} {S v} (h : Passing s S v) (hS : S.length ≤ 5)
    (hs : s.Sound0) (hw : now.toNat + 255000 < 2 ^ 32) (hsl : s.state = .slave)
    (hT : now ≤ s.timers.heartbeat) (hrx : ∀ p ∈ rx, p.id ∈ S)
    (ht : s.tick .host now rx now rx = .ok s') :
    (Known s rx ∧ s' = { s with tickRun := true }) ∨
    ∃ p, rx = some p ∧ p.id ∉ memory s ∧ s'.state = .slave ∧ s'.sent = s.sent ++ [p] ∧
      (s'.timers.heartbeat = s.timers.heartbeat ∧ ¬ (p.type = .heartbeat ∨ p.type = .claimMaster) ∨
        now.toNat + 5000 ≤ s'.timers.heartbeat.toNat ∧
          s'.timers.heartbeat.toNat < now.toNat + 7000) ∧
      1 ≤ v ∧ Passing s' S (v - 1) := by
  by_cases hk : Known s rx
  · exact .inl ⟨hk, hs.slave_quiet hsl hk hT ht⟩
  · right
    cases rx with
    | none => exact absurd (fun _ h => by cases h) hk
    | some p =>
      have hk : p.id ∉ memory s := fun e => hk fun q hq => by cases hq; exact e
      obtain ⟨e1, e2, e3⟩ := hs.slave_hears hw hsl hk (.inl hT) ht
      obtain ⟨l, m, h1, h2, h3, h4, h5⟩ := h
      have hlen := nodup_length h2 h3
      have hpm : p.id ∉ m := fun e => hk (memory_recent_ids h1 (by omega) e)
      have hnd : (p.id :: m).Nodup := List.nodup_cons.2 ⟨hpm, h2⟩
      have hsub : p.id :: m ⊆ S := by
        intro x hx
        rcases List.mem_cons.1 hx with rfl | hx
        · exact hrx p rfl
        · exact h3 hx
      have hlen' := nodup_length hnd hsub
      rw [List.length_cons] at hlen'
      refine ⟨p, rfl, hk, e1, e2, e3, by omega, l, m ++ [p.id], by rw [e2]; simp [h1], ?_, ?_, ?_,
        by omega⟩
      · rw [List.nodup_append]
        refine ⟨h2, by simp, fun a ha b hb e => ?_⟩
        rw [List.mem_singleton] at hb
        subst hb; subst e
        exact hpm ha
      · intro x hx
        rcases List.mem_append.1 hx with hx | hx
        · exact h3 hx
        · rw [List.mem_singleton] at hx; rw [hx]; exact hrx p rfl
      · rw [List.length_append, List.length_singleton]; omega

/-- What `u` becomes in a `Tick`. -/
def passed {n} (net : FakeNet n) (u : Fin n → Nat) (i : Fin n) : Nat :=
  if ∃ p ∈ net.air, p.id ∉ memory (net.node i) then u i - 1 else u i

/-- What a device that is not due does, and what then waits in its radio. -/
theorem passing {n} {net net' : FakeNet n} {S u} (r : Round net net' fun _ => net.air)
    (hS : S.length ≤ 5) (hw : net.now.toNat + 255000 < 2 ^ 32)
    (hrx : ∀ q ∈ net.packet, q.id ∈ S) {i : Fin n} (h : Passing (net.node i) S (u i))
    (hs : (net.node i).Sound0) (hsl : (net.node i).state = .slave)
    (hT : net.now.toNat ≤ (net.node i).timers.heartbeat.toNat) :
    Passing (net'.node i) S (passed net u i) ∧ (net'.node i).state = .slave ∧
    bit (Waiting net net' i) + passed net u i ≤ bit (net.radio i).sent + u i ∧
    (((∀ q ∈ net.packet, q.id ∈ memory (net.node i)) ∧
        net'.node i = { net.node i with tickRun := true } ∧
        Waiting net net' i = (net.radio i).sent) ∨
      ∃ q p, net.packet = some q ∧ q.id ∉ memory (net.node i) ∧ p.id = q.id ∧ p.type = q.type ∧
        (net'.node i).sent = (net.node i).sent ++ [p] ∧ Waiting net net' i = some p ∧
        ((net'.node i).timers.heartbeat = (net.node i).timers.heartbeat ∧
            ¬ (p.type = .heartbeat ∨ p.type = .claimMaster) ∨
          net.now.toNat + 5000 ≤ (net'.node i).timers.heartbeat.toNat ∧
            (net'.node i).timers.heartbeat.toNat < net.now.toNat + 7000)) := by
  have hair : ∀ p ∈ net.air, p.id ∈ S := fun p hp => by
    obtain ⟨q, hq, e, _⟩ := mem_air hp
    rw [e]; exact hrx q hq
  rcases h.tick hS hs hw hsl (BitVec.le_def.2 hT) hair (r.ticks i) with
    ⟨hk, e⟩ | ⟨p, e1, e2, e3, e4, e5, e6, e7⟩
  · have hp : passed net u i = u i := by
      unfold passed
      rw [if_neg]
      rintro ⟨p, hp, hn⟩
      exact hn (hk p hp)
    have hW : Waiting net net' i = (net.radio i).sent := waiting_same (by rw [e])
    rw [hp, hW]
    refine ⟨h.same (by rw [e]), by rw [e]; exact hsl, Nat.le_refl _, .inl ⟨fun q hq => ?_, e, rfl⟩⟩
    obtain ⟨p, hp, pid, _⟩ := air_some hq
    rw [← pid]; exact hk p hp
  · have hp : passed net u i = u i - 1 := by
      unfold passed
      rw [if_pos ⟨p, e1, e2⟩]
    have hW : Waiting net net' i = some p := by rw [waiting_eq e4]; rfl
    rw [hp, hW]
    refine ⟨e7, e3, ?_, .inr ?_⟩
    · have : bit (some p) = 1 := rfl
      omega
    · obtain ⟨q, hq, pid, pty⟩ := mem_air e1
      exact ⟨q, p, hq, by rw [← pid]; exact e2, pid, pty, e4, rfl, e5⟩

end FakeNet
end Firefly
