import Verif.Lemmas.Duel
import Verif.Props.Odds

/-! # Two masters that meet (C161) -/

namespace Firefly.Props
open Spec Demo

section
variable {K : Nat}

open Classical in
/-- **C161.** One of two masters transmits a heartbeat, the other hears it and answers. In at most `10 / 65533`
of the outcomes this does not leave exactly one of them master. -/
theorem duel_decided_odds (hK : 65533 ∣ K) {d : Duel} (pr : d.Proper) (tail tail' : Rand) :
    (Finset.univ.filter fun w : Luck K × Luck K => ¬ d.SenderWins (supply tail w.1) (supply tail' w.2) ∧
        ¬ d.ListenerWins (supply tail w.1) (supply tail' w.2)).card * 65533 ≤
      10 * Fintype.card (Luck K × Luck K) := by
  have known : ∀ l : List U16, l.length ≤ 5 →
      (∑ x ∈ Finset.range 65533, if BitVec.ofNat 16 (2 + x) ∈ l then 1 else 0) ≤ 5 := by
    intro l hl
    have := known_ids l
    rw [Finset.card_filter] at this
    exact Nat.le_trans this hl
  have hA : ∀ ω : Luck K,
      (∑ ω' : Luck K, if BitVec.ofNat 16 (2 + ω'.2.2.1.val % 65533) ∈ duelMemory d (supply tail ω) then 1 else 0) *
        65533 ≤ Fintype.card (Luck K) * 5 := by
    intro ω
    rw [luck_second hK fun x => if BitVec.ofNat 16 (2 + x) ∈ duelMemory d (supply tail ω) then 1 else 0]
    exact Nat.mul_le_mul_left _ (known _ (duelMemory_length _ _))
  have hB : (∑ ω : Luck K, if BitVec.ofNat 16 (2 + ω.2.1.val % 65533) ∈ d.b.nm.cache.toList then 1 else 0) *
      65533 ≤ Fintype.card (Luck K) * 5 := by
    rw [luck_first hK fun x => if BitVec.ofNat 16 (2 + x) ∈ d.b.nm.cache.toList then 1 else 0]
    exact Nat.mul_le_mul_left _ (known _ (by rw [Vector.length_toList]))
  have split_ : (Finset.univ.filter fun w : Luck K × Luck K => ¬ d.SenderWins (supply tail w.1) (supply tail' w.2) ∧
        ¬ d.ListenerWins (supply tail w.1) (supply tail' w.2)).card ≤
      Fintype.card (Luck K) *
        (∑ ω : Luck K, if BitVec.ofNat 16 (2 + ω.2.1.val % 65533) ∈ d.b.nm.cache.toList then 1 else 0) +
      ∑ ω : Luck K, ∑ ω' : Luck K,
        if BitVec.ofNat 16 (2 + ω'.2.2.1.val % 65533) ∈ duelMemory d (supply tail ω) then 1 else 0 := by
    rw [Finset.card_filter, Fintype.sum_prod_type, Finset.mul_sum, ← Finset.sum_add_distrib]
    refine Finset.sum_le_sum fun ω _ => ?_
    have : Fintype.card (Luck K) * (if BitVec.ofNat 16 (2 + ω.2.1.val % 65533) ∈ d.b.nm.cache.toList then 1 else 0) =
        ∑ _ω' : Luck K, if BitVec.ofNat 16 (2 + ω.2.1.val % 65533) ∈ d.b.nm.cache.toList then 1 else 0 := by
      rw [Finset.sum_const, Finset.card_univ, smul_eq_mul]
    rw [this, ← Finset.sum_add_distrib]
    refine Finset.sum_le_sum fun ω' _ => ?_
    split
    · rename_i h
      by_cases h1 : BitVec.ofNat 16 (2 + ω.2.1.val % 65533) ∈ d.b.nm.cache.toList
      · rw [if_pos h1]; omega
      · by_cases h2 : BitVec.ofNat 16 (2 + ω'.2.2.1.val % 65533) ∈ duelMemory d (supply tail ω)
        · rw [if_pos h2]; omega
        · rcases duel_decided pr (ra := supply tail ω) (rb := supply tail' ω') h1 h2 with k | k
          · exact absurd k h.1
          · exact absurd k h.2
    · exact Nat.zero_le _
  have hA' : (∑ ω : Luck K, ∑ ω' : Luck K,
      if BitVec.ofNat 16 (2 + ω'.2.2.1.val % 65533) ∈ duelMemory d (supply tail ω) then 1 else 0) * 65533 ≤
      Fintype.card (Luck K) * (Fintype.card (Luck K) * 5) := by
    rw [Finset.sum_mul]
    refine Nat.le_trans (Finset.sum_le_sum fun ω _ => hA ω) ?_
    rw [Finset.sum_const, Finset.card_univ, smul_eq_mul]
  have hB' := Nat.mul_le_mul_left (Fintype.card (Luck K)) hB
  rw [Fintype.card_prod (Luck K) (Luck K)]
  refine Nat.le_trans (Nat.mul_le_mul_right _ split_) ?_
  rw [Nat.add_mul, Nat.mul_assoc]
  refine Nat.le_trans (Nat.add_le_add hB' hA') (Nat.le_of_eq ?_)
  ring

open Classical in
/-- **C161.** The sender of the heartbeat remains the only master in at most `32768 / 65534` of the outcomes. -/
theorem duel_sender_odds (hK : EvenDraws K) {d : Duel} (pr : d.Proper) (tail tail' : Rand) :
    (Finset.univ.filter fun w : Luck K × Luck K => d.SenderWins (supply tail w.1) (supply tail' w.2)).card *
        65534 ≤ 32768 * Fintype.card (Luck K × Luck K) := by
  have le : (Finset.univ.filter fun w : Luck K × Luck K => d.SenderWins (supply tail w.1) (supply tail' w.2)).card ≤
      ∑ w : Luck K × Luck K, if ¬ 2 + w.1.2.1.val % 65533 < 1 + w.2.2.1.val % 65534 then 1 else 0 := by
    rw [Finset.card_filter]
    refine Finset.sum_le_sum fun w _ => ?_
    split
    · rename_i h
      obtain ⟨a', b', e, -, hb⟩ := h
      rcases duel_result pr e with ⟨-, k⟩ | ⟨k, -⟩
      · have hb : b'.state = .slave := hb
        rw [k] at hb; cases hb
      · rw [if_pos (show ¬ 2 + w.1.2.1.val % 65533 < 1 + w.2.2.1.val % 65534 from k)]
    · exact Nat.zero_le _
  have h := luck_pair hK.ids hK.elections fun x y => if ¬ 2 + x < 1 + y then 1 else 0
  have e : (∑ x ∈ Finset.range 65533, ∑ y ∈ Finset.range 65534, if ¬ 2 + x < 1 + y then 1 else 0) * 2 =
      65536 * 65533 := sum_loses' (k := 65532) (by omega) (by omega)
  generalize (∑ x ∈ Finset.range 65533, ∑ y ∈ Finset.range 65534, if ¬ 2 + x < 1 + y then 1 else 0) = S at h e
  have hS : S = 32768 * 65533 := by omega
  rw [hS] at h
  generalize (∑ w : Luck K × Luck K, if ¬ 2 + w.1.2.1.val % 65533 < 1 + w.2.2.1.val % 65534 then 1 else 0) = N at h le
  omega

open Classical in
/-- **C161.** The listener remains the only master in at most `32766 / 65534` of the outcomes. -/
theorem duel_listener_odds (hK : EvenDraws K) {d : Duel} (pr : d.Proper) (tail tail' : Rand) :
    (Finset.univ.filter fun w : Luck K × Luck K => d.ListenerWins (supply tail w.1) (supply tail' w.2)).card *
        65534 ≤ 32766 * Fintype.card (Luck K × Luck K) := by
  have le : (Finset.univ.filter fun w : Luck K × Luck K => d.ListenerWins (supply tail w.1) (supply tail' w.2)).card ≤
      ∑ w : Luck K × Luck K, if 2 + w.1.2.1.val % 65533 < 1 + w.2.2.1.val % 65534 then 1 else 0 := by
    rw [Finset.card_filter]
    refine Finset.sum_le_sum fun w _ => ?_
    split
    · rename_i h
      obtain ⟨a', b', e, -, hb⟩ := h
      rcases duel_result pr e with ⟨k, -⟩ | ⟨-, k⟩
      · rw [if_pos (show 2 + w.1.2.1.val % 65533 < 1 + w.2.2.1.val % 65534 from k)]
      · have hb : b'.state = .master := hb
        rw [k] at hb; cases hb
    · exact Nat.zero_le _
  have h := luck_pair hK.ids hK.elections fun x y => if 2 + x < 1 + y then 1 else 0
  have e : (∑ x ∈ Finset.range 65533, ∑ y ∈ Finset.range 65534, if 2 + x < 1 + y then 1 else 0) * 2 =
      65532 * 65533 := sum_wins' (k := 65532) (by omega) (by omega)
  generalize (∑ x ∈ Finset.range 65533, ∑ y ∈ Finset.range 65534, if 2 + x < 1 + y then 1 else 0) = S at h e
  have hS : S = 32766 * 65533 := by omega
  rw [hS] at h
  generalize (∑ w : Luck K × Luck K, if 2 + w.1.2.1.val % 65533 < 1 + w.2.2.1.val % 65534 then 1 else 0) = N at h le
  omega

open Classical in
/-- **C161.** So it is a nearly fair coin: each of the two remains the only master in at least `32757 / 65534`
and `32755 / 65534` of the outcomes. -/
theorem duel_fair (hK : EvenDraws K) {d : Duel} (pr : d.Proper) (tail tail' : Rand) :
    32757 * Fintype.card (Luck K × Luck K) ≤
      (Finset.univ.filter fun w : Luck K × Luck K => d.SenderWins (supply tail w.1) (supply tail' w.2)).card *
        65534 ∧
    32755 * Fintype.card (Luck K × Luck K) ≤
      (Finset.univ.filter fun w : Luck K × Luck K => d.ListenerWins (supply tail w.1) (supply tail' w.2)).card *
        65534 := by
  have h1 := duel_decided_odds hK.ids pr tail tail'
  have h2 := duel_sender_odds hK pr tail tail'
  have h3 := duel_listener_odds hK pr tail tail'
  have h4 : Fintype.card (Luck K × Luck K) ≤
      (Finset.univ.filter fun w : Luck K × Luck K => d.SenderWins (supply tail w.1) (supply tail' w.2)).card +
      (Finset.univ.filter fun w : Luck K × Luck K => d.ListenerWins (supply tail w.1) (supply tail' w.2)).card +
      (Finset.univ.filter fun w : Luck K × Luck K => ¬ d.SenderWins (supply tail w.1) (supply tail' w.2) ∧
        ¬ d.ListenerWins (supply tail w.1) (supply tail' w.2)).card := by
    rw [Finset.card_filter, Finset.card_filter, Finset.card_filter, ← Finset.sum_add_distrib,
      ← Finset.sum_add_distrib, ← Finset.card_univ, Finset.card_eq_sum_ones]
    refine Finset.sum_le_sum fun w _ => ?_
    by_cases k1 : d.SenderWins (supply tail w.1) (supply tail' w.2)
    · simp [k1]
    · by_cases k2 : d.ListenerWins (supply tail w.1) (supply tail' w.2)
      · simp [k2]
      · simp [k1, k2]
  generalize Fintype.card (Luck K × Luck K) = T at *
  constructor <;> omega

open Classical in
/-- **C161.** For a given number of the heartbeat the odds are exact: the listener remains master in
`(65534 - id) / 65534` of the outcomes. -/
theorem election_exact (hK : 65534 ∣ K) {t₀ : U32} {h : List Entry} {s : Node} (run : Run .arduino t₀ h s)
    (hm : s.getCurrentState = .master) {p : Packet} (hp : p.type = .heartbeat) (hh : Hears s (some p) p)
    (now : U32) (tail : Rand) :
    (Finset.univ.filter fun ω : Luck K => ∃ s',
        { s with rand := supply tail ω }.radioTick .arduino now (some p) = .ok s' ∧
          s'.getCurrentState = .master).card * 65534 =
      (65534 - p.id.toNat) * Fintype.card (Luck K) := by
  have e : ∀ ω : Luck K, (∃ s', { s with rand := supply tail ω }.radioTick .arduino now (some p) = .ok s' ∧
      s'.getCurrentState = .master) ↔ p.id.toNat < 1 + ω.2.1.val % 65534 := by
    intro ω
    have wf : ({ s with rand := supply tail ω } : Node).WF := ⟨run.wf.idx, run.wf.next, run.wf.timerNone⟩
    have hd : ({ s with rand := supply tail ω } : Node).delivered (some p) = some p := by
      have e : s.delivered (some p) = some p := hh.delivered run.wf
      exact e
    have key : p.id < electionId .arduino (supply tail ω) ↔ p.id.toNat < 1 + ω.2.1.val % 65534 := by
      have e : (electionId .arduino (supply tail ω)).toNat = 1 + ω.2.1.val % 65534 := by
        have e0 : supply tail ω 0 = ω.2.1.val := rfl
        rw [electionId, BitVec.toNat_ofNat, e0]
        omega
      rw [BitVec.lt_def, e]
    rw [← key]
    obtain ⟨s', hs'⟩ := arduino_tick (now := now) (rx := some p) wf
    constructor
    · rintro ⟨s'', h1, h2⟩
      rcases duel_listen wf hm hd hp h1 with ⟨k, -⟩ | ⟨-, k, -⟩
      · exact k
      · have h2 : s''.state = .master := h2
        rw [k] at h2; cases h2
    · intro k
      rcases duel_listen wf hm hd hp hs' with ⟨-, k', -⟩ | ⟨k', -⟩
      · exact ⟨s', hs', k'⟩
      · exact absurd k k'
  have e2 : ∀ m, (∑ y ∈ Finset.range m, if p.id.toNat < 1 + y then 1 else 0) = m - p.id.toNat := by
    intro m
    induction m with
    | zero => simp
    | succ m ih =>
      rw [Finset.sum_range_succ, ih]
      split <;> omega
  rw [Finset.card_filter, Finset.sum_congr rfl fun ω _ => if_congr (e ω) rfl rfl]
  have h3 := luck_first (K := K) hK fun y => if p.id.toNat < 1 + y then 1 else 0
  rw [e2] at h3
  rw [Nat.mul_comm (65534 - _)]
  exact h3

end

/-! ### A concrete case -/

/-- Two devices that both took over 6 s after they were switched on. -/
def duel : Duel := ⟨(boot 0).2, (boot 1).2, 7001, 7002, 7003⟩

theorem duel_proper : duel.Proper where
  runA := ⟨_, _, boot_run 0⟩
  runB := ⟨_, _, boot_run 1⟩
  masterA := boot_master 0
  masterB := boot_master 1
  beats r := by
    have wf : ({ (boot 0).2 with rand := r } : Node).WF :=
      ⟨(boot_run 0).wf.idx, (boot_run 0).wf.next, (boot_run 0).wf.timerNone⟩
    have hd : ({ (boot 0).2 with rand := r } : Node).delivered none = none := rfl
    have ht : (boot 0).2.timerExpired 7001 = .heartbeat := by decide +kernel
    have ht' : ({ (boot 0).2 with rand := r } : Node).timerExpired 7001 = .heartbeat := ht
    exact ⟨_, _, Node.radioTick_beat wf hd (boot_master 0) ht', rfl, rfl⟩

/-- A master that hears a heartbeat with packet number 500: the hypotheses of `election_exact`. -/
example : (∃ h, Run .arduino 0 h (boot 1).2) ∧ (boot 1).2.getCurrentState = .master ∧
    Hears (boot 1).2 (some ⟨500, .heartbeat, 4, Vector.replicate 58 0⟩)
      ⟨500, .heartbeat, 4, Vector.replicate 58 0⟩ :=
  ⟨⟨_, boot_run 1⟩, boot_master 1, _, _, Node.receive_some (boot_run 1).wf.idx (by decide +kernel)⟩

/-- Luck with which the sender wins, luck with which the listener does, and luck with which neither
does: the heartbeat gets the number 103, the one of the heartbeat with which the listener took over. -/
theorem duel_demo :
    duel.Proper ∧ duel.SenderWins (fun _ => 60000) (fun k => 100 + k) ∧
    duel.ListenerWins (fun _ => 500) (fun k => 40000 + k) ∧
    ∀ rb, ¬ duel.SenderWins (fun _ => 101) rb ∧ ¬ duel.ListenerWins (fun _ => 101) rb := by
  have no : ∀ rb a' b', ¬ duel.Ends (fun _ => 101) rb a' b' := by
    rintro rb a' b' ⟨a₁, p, h1, h2, h3, -⟩
    obtain ⟨a₂, p', k1, k2, k3⟩ := duel_proper.beats fun _ => 101
    rw [h1] at k1
    cases k1
    cases List.append_cancel_left (h2.symm.trans k2)
    have wf : ({ (boot 0).2 with rand := fun _ => 101 } : Node).WF :=
      ⟨(boot_run 0).wf.idx, (boot_run 0).wf.next, (boot_run 0).wf.timerNone⟩
    have i := (duel_beat wf (boot_master 0) h1 h2 k3).2.2.1
    have hd : duel.b.delivered (some p) = some p := h3.delivered (boot_run 1).wf
    have hm : (103 : U16) ∈ duel.b.nm.cache.toList := by decide +kernel
    simp only [Node.delivered] at hd
    rw [if_pos (by rw [i]; exact hm)] at hd
    cases hd
  refine ⟨duel_proper, ?_, ?_, fun rb => ⟨?_, ?_⟩⟩
  · have h1 : BitVec.ofNat 16 (2 + 60000 % 65533) ∉ duel.b.nm.cache.toList := by decide +kernel
    have h2 : BitVec.ofNat 16 (2 + (100 + 1) % 65533) ∉ duelMemory duel (fun _ => 60000) := by decide +kernel
    rcases duel_decided duel_proper (ra := fun _ => 60000) (rb := fun k => 100 + k) h1 h2 with k | ⟨a', b', e, -, hb⟩
    · exact k
    · rcases duel_result duel_proper e with ⟨k, -⟩ | ⟨-, k⟩
      · exact absurd k (by decide)
      · have hb : b'.state = .master := hb
        rw [k] at hb; cases hb
  · have h1 : BitVec.ofNat 16 (2 + 500 % 65533) ∉ duel.b.nm.cache.toList := by decide +kernel
    have h2 : BitVec.ofNat 16 (2 + (40000 + 1) % 65533) ∉ duelMemory duel (fun _ => 500) := by decide +kernel
    rcases duel_decided duel_proper (ra := fun _ => 500) (rb := fun k => 40000 + k) h1 h2 with ⟨a', b', e, -, hb⟩ | k
    · rcases duel_result duel_proper e with ⟨-, k⟩ | ⟨k, -⟩
      · have hb : b'.state = .slave := hb
        rw [k] at hb; cases hb
      · exact absurd (show 2 + 500 % 65533 < 1 + (40000 + 0) % 65534 by decide) k
    · exact k
  · rintro ⟨a', b', e, -⟩; exact no _ _ _ e
  · rintro ⟨a', b', e, -⟩; exact no _ _ _ e

end Firefly.Props
