import Verif.Lemmas.FakeReset

/-! # The network of the integration tests with one master, other devices being reset -/

namespace Firefly
open Spec

namespace FakeNet

/-- `A` is the only master, after a `Tick` at `t`; `ρ` is when devices were last reset.  `S` is what
the master has transmitted since `s₀`, when all was quiet; all slaves heard a heartbeat or claim, or
were reset, at `L` or later; the last heartbeat was sent at `h`; device `i` will pass on at most
`u i` of the packets `S`. -/
structure FirmAt {n} (net : FakeNet n) (A : Fin n) (t ρ s₀ L h : Nat) (u : Fin n → Nat)
    (l S : List Packet) : Prop where
  loss : net.loss = 0
  sound : ∀ i, (net.node i).Sound0
  ran : (net.node A).tickRun = true
  master : (net.node A).state = .master
  slaves : ∀ i, i ≠ A → (net.node i).state = .slave ∧
    L + 5000 ≤ (net.node i).timers.heartbeat.toNat
  heard : L ≤ t
  beat : (net.node A).timers.heartbeat.toNat = h + 1000
  past : h ≤ t
  onTime : OnTime t (h + 1000) (net.node A).timers.changeEffect.toNat
    (net.node A).timers.broadcastEffect.toNat
  sent : (net.node A).sent = l ++ S
  since : s₀ ≤ t
  count : S.length ≤ late (s₀ + 1000) (h + 1000) (net.node A).timers.changeEffect.toNat
    (net.node A).timers.broadcastEffect.toNat
  relays : ∀ i, i ≠ A → Passing (net.node i) (S.map (·.id)) (u i)
  zero : u A = 0
  pot : net.pend u + t ≤ s₀ + 2 * n * S.length + n + 2 + if s₀ ≤ ρ then 3 * n else 0
  slot : ∀ q ∈ net.packet, q.id ∈ S.map (·.id)
  wait : ∀ i, ∀ q ∈ (net.radio i).sent, q.id ∈ S.map (·.id)
  idle : net.packet = none → ∀ i, (net.radio i).sent = none
  heart : Missed (7 * n + 2) h L (net.node A).timers.changeEffect.toNat
      (net.node A).timers.broadcastEffect.toNat ∨
    (h ≤ L + 4004 ∧ h + (7 * n + 2) ≤ (net.node A).timers.broadcastEffect.toNat ∧
      h + (7 * n + 2) ≤ (net.node A).timers.changeEffect.toNat ∧
      net.pend u + t ≤ h + 4 * n + 2 + (if h ≤ ρ then 3 * n else 0) ∧
      ∃ q : Packet, q.type = .heartbeat ∧
        (∀ i, i ≠ A → q.id ∉ memory (net.node i) ∨
          h + 5000 ≤ (net.node i).timers.heartbeat.toNat) ∧
        (net.packet = some q ∨ ((net.radio A).sent = some q ∧ (∀ r ∈ net.packet, r.id ≠ q.id) ∧
          ∀ i, i ≠ A → ∀ r ∈ (net.radio i).sent, r.id ≠ q.id)))

/-- `A` is, and remains, the only master as long as it is not reset. -/
def Firm {n} (net : FakeNet n) (A : Fin n) (t ρ : Nat) : Prop :=
  ∃ s₀ L h u l S, FirmAt net A t ρ s₀ L h u l S

theorem Firm.only {n} {net : FakeNet n} {A t ρ} (c : Firm net A t ρ) : OnlyMaster net A := by
  obtain ⟨_, _, _, _, _, _, c⟩ := c
  intro i
  by_cases h : i = A
  · subst h; rw [if_pos rfl]; exact c.master
  · rw [if_neg h]; exact (c.slaves i h).1

theorem FirmAt.bounds {n} {net : FakeNet n} {A t ρ s₀ L h u l S}
    (c : FirmAt net A t ρ s₀ L h u l S) (hn : n ≤ 42) :
    S.length ≤ 3 ∧ t + 994 ≤ L + 5000 + 7 * n ∧
      net.pend u + t ≤ s₀ + 7 * n + 2 + (if s₀ ≤ ρ then 3 * n else 0) := by
  have hS3 : S.length ≤ 3 := Nat.le_trans c.count (late_le _ _ _ _)
  have hpot3 : 2 * n * S.length ≤ 6 * n := by
    have := Nat.mul_le_mul_left (2 * n) hS3; omega
  refine ⟨hS3, ?_, by have := c.pot; omega⟩
  have h1 := c.onTime.beat
  rcases c.heart with hm | ⟨h2, _, _, h3, _⟩
  · unfold Missed at hm; omega
  · have : (if h ≤ ρ then 3 * n else 0) ≤ 3 * n := by split <;> omega
    omega

theorem Firm.tick {n} {net net' : FakeNet n} {A t ρ} (c : Firm net A t ρ) (hn : n ≤ 42)
    (r : Round net net' fun _ => net.air) (ht : net.now.toNat = t + 1)
    (hw : net.now.toNat + 255000 < 2 ^ 32) (f : Fresh net net') : Firm net' A (t + 1) ρ := by
  obtain ⟨s₀, L, h, u, l, S, c⟩ := c
  obtain ⟨hS3, htL, hpot3⟩ := c.bounds hn
  have hn0 : 0 < n := A.pos
  have hX : ∀ x, (if x ≤ ρ then 3 * n else 0) ≤ 3 * n := fun x => by split <;> omega
  have hts : t < s₀ + 1000 := by have := hX s₀; omega
  have hmemS : ∀ x, x ∈ S.map (·.id) → x ∈ memory (net.node A) := fun x hx =>
    memory_recent c.sent (by omega) hx
  -- the master
  obtain ⟨T₁, l₁, l₂, f1, f2, hsent, hmaster⟩ := ((c.sound A).ran c.ran).master_tick c.master c.sent
    (by omega) (fun p hp => by obtain ⟨q, hq, e, _⟩ := mem_air hp; rw [e]; exact c.slot q hq)
    (r.ticks A)
  have onT := c.onTime
  rw [← c.beat] at onT
  have fires := fires_of ht hw onT f1 f2
  rw [c.beat] at fires
  generalize l₁ ++ l₂ = m at fires hsent
  have hownA : own net net' A = m := own_known hsent fun p hp => hmemS _ (c.slot p hp)
  have on' := fires.onTime c.onTime
  have hsent' : (net'.node A).sent = l ++ (S ++ m) := by
    rw [hsent, c.sent, List.append_assoc]
  have cnt' := fires.count c.since hts
  have hm3 : S.length + m.length ≤ 3 := by
    have := late_le (s₀ + 1000) (net'.node A).timers.heartbeat.toNat
      (net'.node A).timers.changeEffect.toNat (net'.node A).timers.broadcastEffect.toNat
    have := c.count
    omega
  -- the others
  have others := fun i (hi : i ≠ A) => passing (u := u) (S := S.map (·.id)) r
    (by rw [List.length_map]; omega) hw c.slot (c.relays i hi) (c.sound i) (c.slaves i hi).1
    (by have := (c.slaves i hi).2; omega)
  -- what they know afterwards
  have mem' : ∀ i, i ≠ A → ∀ x, (∀ q ∈ net.packet, q.id ≠ x) → x ∉ memory (net.node i) →
      x ∉ memory (net'.node i) := by
    intro i hi x hx hn hm
    rcases (others i hi).2.2.2 with ⟨_, e, _⟩ | ⟨q, p, e, _, pid, _, e2, _⟩
    · rw [e] at hm; exact hn hm
    · rcases memory_append e2 x hm with hm | hm
      · exact hn hm
      · simp at hm; exact hx q e (pid.symm.trans hm.symm)
  -- deadlines do not come nearer
  have dead' : ∀ i, i ≠ A → ∀ y, y ≤ t + 5001 → y ≤ (net.node i).timers.heartbeat.toNat →
      y ≤ (net'.node i).timers.heartbeat.toNat := by
    intro i hi y hy hd
    rcases (others i hi).2.2.2 with ⟨_, e, _⟩ | ⟨q, p, _, _, _, _, _, _, e | e⟩
    · rw [e]; exact hd
    · rw [e.1]; exact hd
    · omega
  have hWA : Waiting net net' A = m.getLast?.or (net.radio A).sent := waiting_eq hsent
  have hWS : ∀ i, ∀ q ∈ Waiting net net' i, q.id ∈ (S ++ m).map (·.id) := by
    intro i q hq
    rw [List.map_append]
    by_cases hi : i = A
    · subst hi
      rw [hWA] at hq
      cases hl : m.getLast? with
      | none =>
        rw [hl] at hq
        exact List.mem_append_left _ (c.wait i q hq)
      | some q' =>
        rw [hl] at hq
        cases hq
        exact List.mem_append_right _ (List.mem_map_of_mem (List.mem_of_getLast? hl))
    · rcases (others i hi).2.2.2 with ⟨_, _, e⟩ | ⟨q', p, e, _, pid, _, _, e3, _⟩
      · rw [e] at hq; exact List.mem_append_left _ (c.wait i q hq)
      · rw [e3] at hq; cases hq
        rw [pid]; exact List.mem_append_left _ (c.slot q' e)
  -- the network takes a packet
  have sent' : ∀ i, (net'.radio i).sent = none ∨ (net'.radio i).sent = Waiting net net' i :=
    taken_sent r
  have wait' : ∀ i, ∀ q ∈ (net'.radio i).sent, q.id ∈ (S ++ m).map (·.id) := by
    intro i q hq
    rcases sent' i with e | e
    · rw [e] at hq; cases hq
    · rw [e] at hq; exact hWS i q hq
  have slot' : ∀ q ∈ net'.packet, q.id ∈ (S ++ m).map (·.id) := by
    intro q hq
    rcases taken_cases r with ⟨h, _, _⟩ | ⟨k, p, h1, h2, _⟩
    · rw [h] at hq; cases hq
    · rw [h1] at hq; cases hq
      exact hWS k _ h2
  have idle' : net'.packet = none → ∀ i, (net'.radio i).sent = none := by
    intro hq
    rcases taken_cases r with ⟨_, h, _⟩ | ⟨k, p, h1, _⟩
    · exact h
    · rw [h1] at hq; cases hq
  -- what is still to come
  let u' : Fin n → Nat := fun i => if i = A then 0 else passed net u i + m.length
  have hu' : ∀ i, i ≠ A → Passing (net'.node i) ((S ++ m).map (·.id)) (u' i) := by
    intro i hi
    show Passing _ _ (if i = A then 0 else passed net u i + m.length)
    rw [if_neg hi, List.map_append]
    have := (others i hi).1.more (m.map (·.id))
    rwa [List.length_map] at this
  have hu0 : u' A = 0 := if_pos rfl
  have pend1 : net'.pend u' ≤ tot (fun i => bit (net.radio i).sent + u i) + n * m.length := by
    rw [pend_taken r]
    apply tot_add
    intro i
    by_cases hi : i = A
    · subst hi
      rw [hu0, c.zero, hWA]
      cases hl : m.getLast? with
      | none => show bit (net.radio i).sent + 0 ≤ _; omega
      | some q =>
        have : 0 < m.length := List.length_pos_of_mem (List.mem_of_getLast? hl)
        have := bit_le (some q)
        show bit (some q) + 0 ≤ _
        omega
    · have := (others i hi).2.2.1
      show bit _ + (if i = A then 0 else passed net u i + m.length) ≤ _
      rw [if_neg hi]
      omega
  have pend2 : net'.pend u' ≤ n * 4 := by
    rw [pend_taken r]
    apply tot_bound
    intro i
    have h1 := bit_le (Waiting net net' i)
    have h2 : u' i ≤ 3 := by
      by_cases hi : i = A
      · rw [hi, hu0]; omega
      · have := (hu' i hi).le
        rw [List.length_map, List.length_append] at this
        omega
    omega
  have pend3 : m = [] → net.packet ≠ none → net'.pend u' + 1 ≤ net.pend u := by
    intro hm hp
    rw [hm] at pend1
    have e : bit net.packet = 1 := by
      cases hq : net.packet with
      | none => exact absurd hq hp
      | some => rfl
    unfold pend at *
    rw [e]
    simp only [List.length_nil, Nat.mul_zero] at pend1
    omega
  have sound' : ∀ i, (net'.node i).Sound := fun i => (c.sound i).after (r.ticks i)
  -- the heartbeat
  have heart : ∃ h' L', h' ≤ t + 1 ∧ L' ≤ t + 1 ∧
      (net'.node A).timers.heartbeat.toNat = h' + 1000 ∧
      (∀ i, i ≠ A → L' + 5000 ≤ (net'.node i).timers.heartbeat.toNat) ∧
      (Missed (7 * n + 2) h' L' (net'.node A).timers.changeEffect.toNat
        (net'.node A).timers.broadcastEffect.toNat ∨
      (h' ≤ L' + 4004 ∧ h' + (7 * n + 2) ≤ (net'.node A).timers.broadcastEffect.toNat ∧
        h' + (7 * n + 2) ≤ (net'.node A).timers.changeEffect.toNat ∧
        net'.pend u' + (t + 1) ≤ h' + 4 * n + 2 + (if h' ≤ ρ then 3 * n else 0) ∧
        (m ≠ [] ∨ net.packet ≠ none) ∧
        ∃ q : Packet, q.type = .heartbeat ∧ Waiting net net' A = some q ∧
          (∀ i, i ≠ A → q.id ∉ memory (net'.node i) ∨
            h' + 5000 ≤ (net'.node i).timers.heartbeat.toNat) ∧
          ∀ i, i ≠ A → ∀ p ∈ Waiting net net' i, p.id ≠ q.id)) := by
    have sl : ∀ i, i ≠ A → L + 5000 ≤ (net'.node i).timers.heartbeat.toNat := fun i hi =>
      dead' i hi _ (by have := c.heard; omega) (c.slaves i hi).2
    have hL := c.heard
    have hp := c.past
    have hb := c.onTime.beat
    have waitNe : ∀ x, (∀ q ∈ net.packet, q.id ≠ x) →
        (∀ i, i ≠ A → ∀ q ∈ (net.radio i).sent, q.id ≠ x) →
        ∀ i, i ≠ A → ∀ p ∈ Waiting net net' i, p.id ≠ x := by
      intro x h1 h2 i hi p hp
      rcases (others i hi).2.2.2 with ⟨_, _, e⟩ | ⟨q', p', e, _, pid, _, _, e3, _⟩
      · rw [e] at hp; exact h2 i hi p hp
      · rw [e3] at hp; cases hp
        rw [pid]; exact h1 q' e
    rcases c.heart with hm | ⟨g1, g2, g3, g4, q, g5, g6, g7⟩
    · by_cases heq : t = h + 1000
      · obtain ⟨k1, k2 | ⟨k2, k3, k4, q, k5, k6⟩⟩ :=
          fires.heartbeat c.onTime (K := 7 * n + 2) (by omega) hL heq hm
        · exact ⟨t + 1, L, Nat.le_refl _, by omega, k1, sl, .inl k2⟩
        · have hin : q ∈ own net net' A := by rw [hownA, k5]; simp
          have hslot : ∀ q' ∈ net.packet, q'.id ≠ q.id := fun q' hq' =>
            (f.packet A q hin q' hq').symm
          refine ⟨t + 1, L, Nat.le_refl _, by omega, k1, sl, .inr ⟨k2, k3, k4, by omega,
            .inl (by rw [k5]; simp), q, k6, ?_, fun i hi => .inl ?_, ?_⟩⟩
          · rw [hWA, k5]; rfl
          · exact mem' i hi _ hslot (f.memory A q hin i)
          · exact waitNe _ hslot fun i _ q' hq' => (f.radio A q hin i q' hq').symm
      · obtain ⟨k1, k2⟩ := fires.missed (K := 7 * n + 2) (by omega) hL hp (by omega) hm
        exact ⟨h, L, by omega, by omega, k1, sl, .inl k2⟩
    · have hne : net.packet ≠ none := by
        intro e
        rcases g7 with e' | ⟨e', _⟩
        · rw [e] at e'; cases e'
        · rw [c.idle e] at e'; cases e'
      have hlen : t < h + 1000 ∧ t < (net.node A).timers.changeEffect.toNat ∧
          t < (net.node A).timers.broadcastEffect.toNat := by
        have : 0 < net.pend u := by
          unfold pend
          cases hq : net.packet with
          | none => exact absurd hq hne
          | some => show 0 < _ + 1; omega
        have := hX h
        omega
      have hnone : m = [] ∧ (net'.node A).timers.heartbeat.toNat = h + 1000 ∧
          (net'.node A).timers.changeEffect.toNat = (net.node A).timers.changeEffect.toNat ∧
          (net'.node A).timers.broadcastEffect.toNat =
            (net.node A).timers.broadcastEffect.toNat := by
        clear pend1 pend2 pend3 hu' hu0
        generalize (net'.node A).timers.heartbeat.toNat = H' at *
        generalize (net'.node A).timers.changeEffect.toNat = c' at *
        generalize (net'.node A).timers.broadcastEffect.toNat = b' at *
        cases fires with
        | none => exact ⟨rfl, rfl, rfl, rfl⟩
        | beat | change | «repeat» => omega
        | beatChange | beatRepeat | changeRepeat => omega
      obtain ⟨hm, k1, k2, k3⟩ := hnone
      rcases g7 with e | ⟨e, hN1, hN2⟩
      · refine ⟨h, h, by omega, by omega, k1, fun i hi => ?_, .inl (.inl (Nat.le_refl _))⟩
        rcases g6 i hi with hnew | hd
        · rcases (others i hi).2.2.2 with ⟨hk, _⟩ | ⟨q', p, e', _, _, pty, _, _, e3⟩
          · exact absurd (hk q e) hnew
          · rw [e] at e'; cases e'
            rcases e3 with ⟨_, e3⟩ | e3
            · exact absurd (.inl (pty.trans g5)) e3
            · omega
        · exact dead' i hi _ (by omega) hd
      · have := pend3 hm hne
        refine ⟨h, L, by omega, by omega, k1, sl, .inr ⟨g1, by omega, by omega, by omega,
          .inr hne, q, g5, ?_, fun i hi => ?_, waitNe _ hN1 hN2⟩⟩
        · rw [hWA, hm, e]; rfl
        · rcases g6 i hi with hnew | hd
          · exact .inl (mem' i hi _ hN1 hnew)
          · exact .inr (dead' i hi _ (by omega) hd)
  obtain ⟨h', L', g1, g2, g3, g4, g5⟩ := heart
  rw [g3] at on' cnt'
  have slaves' : ∀ i, i ≠ A → (net'.node i).state = .slave ∧
      L' + 5000 ≤ (net'.node i).timers.heartbeat.toNat := fun i hi =>
    ⟨(others i hi).2.1, g4 i hi⟩
  by_cases hquiet : m = [] ∧ net.packet = none
  · -- all is quiet
    obtain ⟨hm, hp⟩ := hquiet
    have hall : ∀ i, (net.radio i).sent = none := c.idle hp
    have hW0 : ∀ i, Waiting net net' i = none := by
      intro i
      by_cases hi : i = A
      · subst hi; rw [hWA, hm, hall]; rfl
      · rcases (others i hi).2.2.2 with ⟨_, _, e⟩ | ⟨q, p, e, _⟩
        · rw [e, hall]
        · rw [hp] at e; cases e
    have e0 : net'.packet = none ∧ ∀ i, (net'.radio i).sent = none := by
      rcases taken_cases r with ⟨e1, e2, _⟩ | ⟨k, p, _, e2, _⟩
      · exact ⟨e1, e2⟩
      · rw [hW0] at e2; cases e2
    refine ⟨t + 1, L', h', fun _ => 0, l ++ (S ++ m), [], r.loss.trans c.loss,
      fun i => (sound' i).zero, (sound' A).ran, hmaster, slaves',
      g2, g3, g1, on', by rw [hsent', List.append_nil], Nat.le_refl _, by simp,
      fun i _ => Passing.start _ _, rfl, ?_, fun q hq => (by rw [e0.1] at hq; cases hq),
      fun i q hq => (by rw [e0.2] at hq; cases hq), fun _ => e0.2, ?_⟩
    · have : net'.pend (fun _ => 0) ≤ n * 0 := by
        rw [pend_taken r]
        apply tot_bound
        intro i
        rw [hW0]
        exact Nat.le_refl 0
      omega
    · rcases g5 with g5 | ⟨_, _, _, _, _, q, _, e, _⟩
      · exact .inl g5
      · rw [hW0] at e; cases e
  · refine ⟨s₀, L', h', u', l, S ++ m, r.loss.trans c.loss, fun i => (sound' i).zero,
      (sound' A).ran, hmaster, slaves', g2, g3, g1,
      on', hsent', by have := c.since; omega, ?_, hu', hu0, ?_, slot', wait', idle', ?_⟩
    · rw [List.length_append]
      have := c.count
      omega
    · rw [List.length_append]
      have hp := c.pot
      by_cases hm : m = []
      · have := pend3 hm (fun e => hquiet ⟨hm, e⟩)
        have e : 2 * n * (S.length + m.length) = 2 * n * S.length := by rw [hm]; rfl
        omega
      · have hm1 : 1 ≤ m.length := by
          cases m with
          | nil => exact absurd rfl hm
          | cons => simp
        have e1 : 2 * n * (S.length + m.length) = 2 * n * S.length + n * m.length + n * m.length := by
          rw [Nat.mul_add]
          have : 2 * n * m.length = n * m.length + n * m.length := by
            rw [Nat.mul_assoc]; omega
          omega
        have e2 : 1 ≤ n * m.length := Nat.mul_pos hn0 hm1
        have e3 : tot (fun i => bit (net.radio i).sent + u i) ≤ net.pend u := by
          unfold pend; omega
        omega
    · rcases g5 with g5 | ⟨k1, k2, k3, k4, k5, q, k6, k7, k8, k9⟩
      · exact .inl g5
      · refine .inr ⟨k1, k2, k3, k4, q, k6, k8, ?_⟩
        rcases taken_cases r with ⟨_, _, e3⟩ | ⟨k, p, e1, e2, e3, e4⟩
        · rw [e3] at k7; cases k7
        · by_cases hk : A = k
          · subst hk
            rw [e2] at k7; cases k7
            exact .inl e1
          · refine .inr ⟨by rw [e4 A hk]; exact k7, fun p' hp' => ?_, fun i hi p' hp' => ?_⟩
            · rw [e1] at hp'; cases hp'
              exact k9 k (Ne.symm hk) _ e2
            · rcases sent' i with e | e
              · rw [e] at hp'; cases hp'
              · rw [e] at hp'; exact k9 i hi p' hp'

end FakeNet
end Firefly
