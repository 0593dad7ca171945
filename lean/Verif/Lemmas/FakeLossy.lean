import Verif.Lemmas.FakeResetCourse

/-! # The network of the integration tests with one master when packets are lost -/

namespace Firefly
open Spec

namespace FakeNet

/-- `A` is the only master, after a `Tick` at `t`; `ρ` is when devices were last reset.  `S` is what
the master has transmitted since `s₀`, when all was quiet; device `i` will pass on at most `u i` of
the packets `S`. -/
structure LossyAt {n} (net : FakeNet n) (A : Fin n) (t ρ s₀ : Nat) (u : Fin n → Nat)
    (l S : List Packet) : Prop where
  sound : ∀ i, (net.node i).Sound0
  ran : (net.node A).tickRun = true
  master : (net.node A).state = .master
  slaves : ∀ i, i ≠ A → (net.node i).state = .slave
  onTime : OnTime t (net.node A).timers.heartbeat.toNat (net.node A).timers.changeEffect.toNat
    (net.node A).timers.broadcastEffect.toNat
  sent : (net.node A).sent = l ++ S
  since : s₀ ≤ t
  count : S.length ≤ late (s₀ + 1000) (net.node A).timers.heartbeat.toNat
    (net.node A).timers.changeEffect.toNat (net.node A).timers.broadcastEffect.toNat
  relays : ∀ i, i ≠ A → Passing (net.node i) (S.map (·.id)) (u i)
  zero : u A = 0
  pot : net.pend u + t ≤ s₀ + 2 * n * S.length + n + 2 + if s₀ ≤ ρ then 3 * n else 0
  slot : ∀ q ∈ net.packet, q.id ∈ S.map (·.id)
  wait : ∀ i, ∀ q ∈ (net.radio i).sent, q.id ∈ S.map (·.id)
  idle : net.packet = none → ∀ i, (net.radio i).sent = none

/-- `A` is the only master, and remains it as long as all others hear from it in time; all was quiet
at `s₀`. -/
def Lossy {n} (net : FakeNet n) (A : Fin n) (t ρ s₀ : Nat) : Prop :=
  ∃ u l S, LossyAt net A t ρ s₀ u l S

theorem Firm.lossy {n} {net : FakeNet n} {A t ρ} (c : Firm net A t ρ) :
    ∃ s₀, Lossy net A t ρ s₀ := by
  obtain ⟨s₀, L, h, u, l, S, c⟩ := c
  exact ⟨s₀, u, l, S, c.sound, c.ran, c.master, fun i hi => (c.slaves i hi).1,
    by rw [c.beat]; exact c.onTime, c.sent, c.since, by rw [c.beat]; exact c.count, c.relays, c.zero,
    c.pot, c.slot, c.wait, c.idle⟩

theorem Lossy.only {n} {net : FakeNet n} {A t ρ s₀} (c : Lossy net A t ρ s₀) :
    OnlyMaster net A := by
  obtain ⟨_, _, _, c⟩ := c
  intro i
  by_cases h : i = A
  · subst h; rw [if_pos rfl]; exact c.master
  · rw [if_neg h]; exact c.slaves i h

theorem LossyAt.bounds {n} {net : FakeNet n} {A t ρ s₀ u l S} (c : LossyAt net A t ρ s₀ u l S) :
    S.length ≤ 3 ∧ net.pend u + t ≤ s₀ + 7 * n + 2 + (if s₀ ≤ ρ then 3 * n else 0) := by
  have hS3 : S.length ≤ 3 := Nat.le_trans c.count (late_le _ _ _ _)
  have hpot3 : 2 * n * S.length ≤ 6 * n := by
    have := Nat.mul_le_mul_left (2 * n) hS3; omega
  exact ⟨hS3, by have := c.pot; omega⟩

theorem Lossy.advance {n} {net : FakeNet n} {A t ρ s₀} (c : Lossy net A t ρ s₀) (d : U32)
    (k : Int) : Lossy ((net.setPacketLoss k).advanceMillis d) A t ρ s₀ := by
  obtain ⟨a1, a2, a3, c⟩ := c
  exact ⟨a1, a2, a3, c.1, c.2, c.3, c.4, c.5, c.6, c.7, c.8, c.9, c.10, c.11, c.12, c.13, c.14⟩

/-- The master stays when others are reset. -/
theorem Lossy.reset {n} {net mid : FakeNet n} {A t ρ s₀ l} (c : Lossy net A t ρ s₀)
    (h : Resets l net mid) (ht : net.now.toNat = t) (hw : net.now.toNat + 255000 < 2 ^ 32)
    (hρ : ρ + (10 * n + 3) ≤ t) (hA : A ∉ l) : Lossy mid A t t s₀ := by
  obtain ⟨u, l', S, c⟩ := c
  obtain ⟨_, hr, hp, hl, hnode⟩ := h.facts hw
  rw [ht] at hnode
  obtain ⟨hS3, hpot⟩ := c.bounds
  have eA : mid.node A = net.node A := by
    rcases hnode A with ⟨_, e⟩ | ⟨e, _⟩
    · exact e
    · exact absurd e hA
  let u' : Fin n → Nat := fun i => if i ∈ l then S.length else u i
  have hpend : mid.pend u' ≤ net.pend u + n * 3 := by
    unfold pend
    rw [hp, hr]
    have : tot (fun i => bit (net.radio i).sent + u' i) ≤
        tot (fun i => bit (net.radio i).sent + u i) + n * 3 := by
      apply tot_add
      intro i
      show _ + (if i ∈ l then S.length else u i) ≤ _
      split <;> omega
    omega
  have hs : s₀ ≤ t := c.since
  have hs' : ¬ s₀ ≤ ρ := by
    intro h'
    rw [if_pos h'] at hpot
    omega
  refine ⟨u', l', S, fun i => ?_, by rw [eA]; exact c.ran,
    by rw [eA]; exact c.master, fun i hi => ?_,
    by rw [eA]; exact c.onTime, by rw [eA]; exact c.sent, c.since, by rw [eA]; exact c.count,
    fun i hi => ?_, ?_, ?_, by rw [hp]; exact c.slot, by rw [hr]; exact c.wait,
    by rw [hp, hr]; exact c.idle⟩
  · rcases hnode i with ⟨_, e⟩ | ⟨_, e⟩
    · rw [e]; exact c.sound i
    · exact e.sound
  · rcases hnode i with ⟨_, e⟩ | ⟨_, e⟩
    · rw [e]; exact c.slaves i hi
    · exact e.slave
  · show Passing _ _ (if i ∈ l then S.length else u i)
    rcases hnode i with ⟨h1, e⟩ | ⟨h1, e⟩
    · rw [if_neg h1, e]; exact c.relays i hi
    · rw [if_pos h1]
      have := Passing.start (mid.node i) (S.map (·.id))
      rwa [List.length_map] at this
  · show (if A ∈ l then S.length else u A) = 0
    rw [if_neg hA]; exact c.zero
  · have := c.pot
    rw [if_neg hs'] at this
    rw [if_pos hs]
    omega

/-- What `u` becomes in a `Tick` in which the devices hear `rx`. -/
def passedOf {n} (net : FakeNet n) (rx : Fin n → Option Packet) (u : Fin n → Nat) (i : Fin n) : Nat :=
  if ∃ p ∈ rx i, p.id ∉ memory (net.node i) then u i - 1 else u i

/-- What a slave that is not due does, and what then waits in its radio. -/
theorem passing_lossy {n} {net net' : FakeNet n} {S u rx} (r : Round net net' rx)
    (hrx : ∀ i, ∀ p ∈ rx i, p.id ∈ S)
    (hS : S.length ≤ 5) (hw : net.now.toNat + 255000 < 2 ^ 32)
    {i : Fin n} (h : Passing (net.node i) S (u i))
    (hs : (net.node i).Sound0) (hsl : (net.node i).state = .slave)
    (hT : net.now.toNat ≤ (net.node i).timers.heartbeat.toNat) :
    Passing (net'.node i) S (passedOf net rx u i) ∧ (net'.node i).state = .slave ∧
    bit (Waiting net net' i) + passedOf net rx u i ≤ bit (net.radio i).sent + u i ∧
    ((net'.node i = { net.node i with tickRun := true } ∧
        Waiting net net' i = (net.radio i).sent) ∨
      ∃ p, rx i = some p ∧
        (net'.node i).sent = (net.node i).sent ++ [p] ∧ Waiting net net' i = some p ∧
        ((net'.node i).timers.heartbeat = (net.node i).timers.heartbeat ∧
            ¬ (p.type = .heartbeat ∨ p.type = .claimMaster) ∨
          net.now.toNat + 5000 ≤ (net'.node i).timers.heartbeat.toNat ∧
            (net'.node i).timers.heartbeat.toNat < net.now.toNat + 7000)) := by
  rcases h.tick hS hs hw hsl (BitVec.le_def.2 hT) (hrx i) (r.ticks i) with
    ⟨hk, e⟩ | ⟨p, e1, e2, e3, e4, e5, e6, e7⟩
  · have hp : passedOf net rx u i = u i := by
      unfold passedOf
      rw [if_neg]
      rintro ⟨p, hp, hn⟩
      exact hn (hk p hp)
    have hW : Waiting net net' i = (net.radio i).sent := waiting_same (by rw [e])
    rw [hp, hW]
    exact ⟨h.same (by rw [e]), by rw [e]; exact hsl, Nat.le_refl _, .inl ⟨e, rfl⟩⟩
  · have hp : passedOf net rx u i = u i - 1 := by
      unfold passedOf
      rw [if_pos ⟨p, e1, e2⟩]
    have hW : Waiting net net' i = some p := by rw [waiting_eq e4]; rfl
    rw [hp, hW]
    refine ⟨e7, e3, ?_, .inr ⟨p, e1, e4, rfl, e5⟩⟩
    have : bit (some p) = 1 := rfl
    omega

theorem Lossy.tick {n} {net net' : FakeNet n} {A t ρ s₀ rx} (c : Lossy net A t ρ s₀) (hn : n ≤ 99)
    (r : Round net net' rx) (hrx : ∀ i, rx i = none ∨ rx i = net.air) (ht : net.now.toNat = t + 1)
    (hw : net.now.toNat + 255000 < 2 ^ 32)
    (hd : ∀ i, i ≠ A → t + 1 ≤ (net.node i).timers.heartbeat.toNat) :
    ∃ s₁, Lossy net' A (t + 1) ρ s₁ ∧ (s₁ = s₀ ∨
      s₁ = t + 1 ∧ net'.packet = none ∧ ∀ i, (net'.radio i).sent = none) := by
  obtain ⟨u, l, S, c⟩ := c
  obtain ⟨hS3, hpot3⟩ := c.bounds
  have hn0 : 0 < n := A.pos
  have hX : ∀ x, (if x ≤ ρ then 3 * n else 0) ≤ 3 * n := fun x => by split <;> omega
  have hts : t < s₀ + 1000 := by have := hX s₀; omega
  have hmemS : ∀ x, x ∈ S.map (·.id) → x ∈ memory (net.node A) := fun x hx =>
    memory_recent c.sent (by omega) hx
  have hrxS : ∀ i, ∀ p ∈ rx i, p.id ∈ S.map (·.id) := by
    intro i p hp
    rcases hrx i with e | e
    · rw [e] at hp; cases hp
    · rw [e] at hp
      obtain ⟨q, hq, e, _⟩ := mem_air hp
      rw [e]; exact c.slot q hq
  -- the master
  obtain ⟨T₁, l₁, l₂, f1, f2, hsent, hmaster⟩ := ((c.sound A).ran c.ran).master_tick c.master c.sent
    (by omega) (hrxS A) (r.ticks A)
  have fires := fires_of ht hw c.onTime f1 f2
  generalize l₁ ++ l₂ = m at fires hsent
  have on' := fires.onTime c.onTime
  have hsent' : (net'.node A).sent = l ++ (S ++ m) := by
    rw [hsent, c.sent, List.append_assoc]
  have cnt' := fires.count c.since hts
  have hm3 : S.length + m.length ≤ 3 := by
    have := late_le (s₀ + 1000) (net'.node A).timers.heartbeat.toNat
      (net'.node A).timers.changeEffect.toNat (net'.node A).timers.broadcastEffect.toNat
    have := c.count
    omega
  -- the others
  have others := fun i (hi : i ≠ A) => passing_lossy (u := u) (S := S.map (·.id)) r hrxS
    (by rw [List.length_map]; omega) hw (c.relays i hi) (c.sound i) (c.slaves i hi)
    (by have := hd i hi; omega)
  have hWA : Waiting net net' A = m.getLast?.or (net.radio A).sent := waiting_eq hsent
  have hWS : ∀ i, ∀ q ∈ Waiting net net' i, q.id ∈ (S ++ m).map (·.id) := by
    intro i q hq
    rw [List.map_append]
    by_cases hi : i = A
    · subst hi
      rw [hWA] at hq
      cases hl : m.getLast? with
      | none =>
        rw [hl] at hq
        exact List.mem_append_left _ (c.wait i q hq)
      | some q' =>
        rw [hl] at hq
        cases hq
        exact List.mem_append_right _ (List.mem_map_of_mem (List.mem_of_getLast? hl))
    · rcases (others i hi).2.2.2 with ⟨_, e⟩ | ⟨p, e, _, e3, _⟩
      · rw [e] at hq; exact List.mem_append_left _ (c.wait i q hq)
      · rw [e3] at hq; cases hq
        exact List.mem_append_left _ (hrxS i _ e)
  -- the network takes a packet
  have sent' : ∀ i, (net'.radio i).sent = none ∨ (net'.radio i).sent = Waiting net net' i :=
    taken_sent r
  have wait' : ∀ i, ∀ q ∈ (net'.radio i).sent, q.id ∈ (S ++ m).map (·.id) := by
    intro i q hq
    rcases sent' i with e | e
    · rw [e] at hq; cases hq
    · rw [e] at hq; exact hWS i q hq
  have slot' : ∀ q ∈ net'.packet, q.id ∈ (S ++ m).map (·.id) := by
    intro q hq
    rcases taken_cases r with ⟨h, _, _⟩ | ⟨k, p, h1, h2, _⟩
    · rw [h] at hq; cases hq
    · rw [h1] at hq; cases hq
      exact hWS k _ h2
  have idle' : net'.packet = none → ∀ i, (net'.radio i).sent = none := by
    intro hq
    rcases taken_cases r with ⟨_, h, _⟩ | ⟨k, p, h1, _⟩
    · exact h
    · rw [h1] at hq; cases hq
  -- what is still to come
  let u' : Fin n → Nat := fun i => if i = A then 0 else passedOf net rx u i + m.length
  have hu' : ∀ i, i ≠ A → Passing (net'.node i) ((S ++ m).map (·.id)) (u' i) := by
    intro i hi
    show Passing _ _ (if i = A then 0 else passedOf net rx u i + m.length)
    rw [if_neg hi, List.map_append]
    have := (others i hi).1.more (m.map (·.id))
    rwa [List.length_map] at this
  have hu0 : u' A = 0 := if_pos rfl
  have pend1 : net'.pend u' ≤ tot (fun i => bit (net.radio i).sent + u i) + n * m.length := by
    rw [pend_taken r]
    apply tot_add
    intro i
    by_cases hi : i = A
    · subst hi
      rw [hu0, c.zero, hWA]
      cases hl : m.getLast? with
      | none => show bit (net.radio i).sent + 0 ≤ _; omega
      | some q =>
        have : 0 < m.length := List.length_pos_of_mem (List.mem_of_getLast? hl)
        have := bit_le (some q)
        show bit (some q) + 0 ≤ _
        omega
    · have := (others i hi).2.2.1
      show bit _ + (if i = A then 0 else passedOf net rx u i + m.length) ≤ _
      rw [if_neg hi]
      omega
  have pend3 : m = [] → net.packet ≠ none → net'.pend u' + 1 ≤ net.pend u := by
    intro hm hp
    rw [hm] at pend1
    have e : bit net.packet = 1 := by
      cases hq : net.packet with
      | none => exact absurd hq hp
      | some => rfl
    unfold pend at *
    rw [e]
    simp only [List.length_nil, Nat.mul_zero] at pend1
    omega
  have sound' : ∀ i, (net'.node i).Sound := fun i => (c.sound i).after (r.ticks i)
  have slaves' : ∀ i, i ≠ A → (net'.node i).state = .slave := fun i hi => (others i hi).2.1
  by_cases hquiet : m = [] ∧ net.packet = none
  · -- all is quiet
    obtain ⟨hm, hp⟩ := hquiet
    have hall : ∀ i, (net.radio i).sent = none := c.idle hp
    have hW0 : ∀ i, Waiting net net' i = none := by
      intro i
      by_cases hi : i = A
      · subst hi; rw [hWA, hm, hall]; rfl
      · rcases (others i hi).2.2.2 with ⟨_, e⟩ | ⟨p, e, _⟩
        · rw [e, hall]
        · have : ∀ q, rx i ≠ some q := by
            intro q hq
            rcases hrx i with e' | e'
            · rw [e'] at hq; cases hq
            · rw [e'] at hq
              obtain ⟨q', hq', _⟩ := mem_air (p := q) hq
              rw [hp] at hq'; cases hq'
          exact absurd e (this p)
    have e0 : net'.packet = none ∧ ∀ i, (net'.radio i).sent = none := by
      rcases taken_cases r with ⟨e1, e2, _⟩ | ⟨k, p, _, e2, _⟩
      · exact ⟨e1, e2⟩
      · rw [hW0] at e2; cases e2
    refine ⟨t + 1, ⟨fun _ => 0, l ++ (S ++ m), [],
      fun i => (sound' i).zero, (sound' A).ran, hmaster, slaves',
      on', by rw [hsent', List.append_nil], Nat.le_refl _, by simp,
      fun i _ => Passing.start _ _, rfl, ?_, fun q hq => (by rw [e0.1] at hq; cases hq),
      fun i q hq => (by rw [e0.2] at hq; cases hq), fun _ => e0.2⟩, .inr ⟨rfl, e0⟩⟩
    have : net'.pend (fun _ => 0) ≤ n * 0 := by
      rw [pend_taken r]
      apply tot_bound
      intro i
      rw [hW0]
      exact Nat.le_refl 0
    omega
  · refine ⟨s₀, ⟨u', l, S ++ m, fun i => (sound' i).zero,
      (sound' A).ran, hmaster, slaves',
      on', hsent', by have := c.since; omega, ?_, hu', hu0, ?_, slot', wait', idle'⟩, .inl rfl⟩
    · rw [List.length_append]
      have := c.count
      omega
    · rw [List.length_append]
      have hp := c.pot
      by_cases hm : m = []
      · have := pend3 hm (fun e => hquiet ⟨hm, e⟩)
        have e : 2 * n * (S.length + m.length) = 2 * n * S.length := by rw [hm]; rfl
        omega
      · have hm1 : 1 ≤ m.length := by
          cases m with
          | nil => exact absurd rfl hm
          | cons => simp
        have e1 : 2 * n * (S.length + m.length) = 2 * n * S.length + n * m.length + n * m.length := by
          rw [Nat.mul_add]
          have : 2 * n * m.length = n * m.length + n * m.length := by
            rw [Nat.mul_assoc]; omega
          omega
        have e2 : 1 ≤ n * m.length := Nat.mul_pos hn0 hm1
        have e3 : tot (fun i => bit (net.radio i).sent + u i) ≤ net.pend u := by
          unfold pend; omega
        omega

end FakeNet
end Firefly
