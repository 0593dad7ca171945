import Verif.Lemmas.Crowd
import Verif.Props.Informed

/-! # The odds in a network of any number of devices (C173) -/

namespace Firefly.Props
open Spec Demo

section
variable {n K : Nat}

open Classical in
/-- **C173.** Any number of devices in any states. Whatever they do and hear, and however the moments at which
heartbeats reach them are chosen (knowing all that was drawn before): of all outcomes of `T` rounds, at most
`n * (1 / 2 + 5 / 65533) ^ N` are such that any of the devices was a master all the time although `N` heartbeats
of others reached it, heard or not. -/
theorem several_masters_odds (hK : EvenDraws K) {s₀ : Fin n → Node}
    (run : ∀ i, ∃ t₀ h, Run .arduino t₀ h (s₀ i))
    (plan : List (Throw n K) → Fin n → Option Slot) (tail : Rand) (T N : Nat) :
    (Finset.univ.filter fun w : Fin T → Throw n K =>
        ∃ i, (∀ l, l <:+ List.ofFn w → (crowd plan tail s₀ l i).getCurrentState = .master) ∧
          N ≤ beatsTo plan i (List.ofFn w)).card * (2 * 65533) ^ N ≤
      n * (65533 + 2 * 5) ^ N * Fintype.card (Fin T → Throw n K) := by
  have key := any_count (K := K) (T := T) (A := 131066 ^ N) (B := 65543 ^ N) (Finset.univ : Finset (Fin n))
    (E := fun i w => (∀ l, l <:+ List.ofFn w → (crowd plan tail s₀ l i).getCurrentState = .master) ∧
      N ≤ beatsTo plan i (List.ofFn w)) ?_
  · simp only [Finset.mem_univ, true_and, Finset.card_univ, Fintype.card_fin] at key
    exact key
  · intro i _
    obtain ⟨t₀, h, run⟩ := run i
    refine crowd_count i (E' := fun o v =>
      masterAll (solo plan tail s₀ i 0 o) tail (s₀ i) (List.ofFn v) = true ∧
        N ≤ beatsIn (solo plan tail s₀ i 0 o) (List.ofFn v)) ?_ ?_
    · rintro w ⟨hm, hN⟩
      have e : List.ofFn (fun k => (w k).for i) = (List.ofFn w).map fun x => x.for i := by
        rw [List.map_ofFn]; rfl
      rw [e]
      constructor
      · refine masterAll_of fun l' hl => ?_
        rw [missed_solo]
        rw [List.suffix_iff_eq_drop.1 hl, ← List.map_drop, rebuild_suffix i w _ (List.drop_suffix _ _)]
        exact hm _ (List.drop_suffix _ _)
      · rw [beatsIn_solo, rebuild_suffix i w _ (List.suffix_refl _)]
        exact hN
    · intro o
      convert enduring_odds hK (plan := solo plan tail s₀ i 0 o) (tail := tail) run.wf T N

open Classical in
/-- **C173.** Some of the devices are slaves, each of which was switched on, yielded, or heard of a master at
some time, and from then on signs of life of a master reach it, never more than 1250 ms apart. Whatever else
happens to them and to the others, and however it is chosen: of all outcomes of `T` rounds, at most
`(number of slaves) * (N + 1) * (5 / 65533) ^ 4` are such that any of them was ever a master by the time `N`
signs of life had reached it. -/
theorem informed_crowd_odds (hK : 65533 ∣ K) {s₀ : Fin n → Node} (S : Finset (Fin n))
    (plan : List (Throw n K) → Fin n → Option Slot) (tail : Rand)
    (slaves : ∀ i ∈ S, ∃ t₀ h t, Run .arduino t₀ h (s₀ i) ∧ Clock t₀ h ∧ ProperUse h ∧
      (s₀ i).getCurrentState = .slave ∧ Sign t₀ h t ∧ InformedIn plan i t.toNat) (T N : Nat) :
    (Finset.univ.filter fun w : Fin T → Throw n K =>
        ∃ i ∈ S, ∃ l, l <:+ List.ofFn w ∧ reachedIn plan i l ≤ N ∧
          (crowd plan tail s₀ l i).getCurrentState = .master).card * 65533 ^ 4 ≤
      S.card * ((N + 1) * 5 ^ 4) * Fintype.card (Fin T → Throw n K) := by
  refine any_count S fun i hi => ?_
  obtain ⟨t₀, h, t, run, clock, proper, slave, sign, informed⟩ := slaves i hi
  have ht : t.toNat + 255000 < 2 ^ 32 := by
    refine clock.2 t ?_
    rcases sign with rfl | ⟨e, he, rfl, _⟩
    · exact List.mem_append_right _ (List.mem_singleton.2 rfl)
    · exact List.mem_append_left _ (List.mem_map.2 ⟨e, he, rfl⟩)
  refine crowd_count i (E' := fun o v => ∃ l, l <:+ List.ofFn v ∧
    reached (solo plan tail s₀ i t.toNat o) l ≤ N ∧
      (missed (solo plan tail s₀ i t.toNat o) tail (s₀ i) l).2.getCurrentState = .master) ?_ ?_
  · rintro w ⟨l, hl, hN, hm⟩
    refine ⟨l.map fun x => x.for i, ?_, ?_, ?_⟩
    · have e : List.ofFn (fun k => (w k).for i) = (List.ofFn w).map fun x => x.for i := by
        rw [List.map_ofFn]; rfl
      rw [e]
      exact hl.map _
    · rw [reached_solo, rebuild_suffix i w l hl]
      exact hN
    · rw [missed_solo, rebuild_suffix i w l hl]
      exact hm
  · intro o
    exact informed_slave_odds hK run clock proper slave sign _ tail (informedIn_solo informed ht) T N

end

/-! ### Concrete cases -/

/-- The throw in which the packet has the id that `u` stands for and each device `i` first draws `v i`. -/
def throw (u : Fin (65533 * 65534)) (v : Fin 3 → Fin (65533 * 65534)) : Throw 3 (65533 * 65534) :=
  (u, fun i => (v i, ⟨7, by decide⟩, ⟨8, by decide⟩))

/-- Three devices: a heartbeat reaches two of them, a second goes by, and so on; the third does nothing. -/
def duelCrowd (l : List (Throw 3 (65533 * 65534))) (i : Fin 3) : Option Slot :=
  if i = 2 then none
  else if l.length % 2 = 0 then
    some (.hear (7000 + BitVec.ofNat 32 l.length * 500) ⟨0, .heartbeat, 4, Vector.replicate 58 0⟩)
  else some (.other (.radioTick (7000 + BitVec.ofNat 32 l.length * 500) none))

/-- Two heartbeats that two masters hear: one of them is still a master, the other is not; with other luck both
are. -/
theorem several_masters_demo :
    (∀ i : Fin 3, ∃ t₀ h, Run .arduino t₀ h ((fun _ => (boot 0).2) i)) ∧
    (∀ i : Fin 3, (crowd duelCrowd (fun _ => 0) (fun _ => (boot 0).2)
      [throw ⟨20, by decide⟩ fun _ => ⟨60000, by decide⟩, throw ⟨30, by decide⟩ fun _ => ⟨40, by decide⟩,
       throw ⟨10000, by decide⟩ fun i => if i = 0 then ⟨10, by decide⟩ else ⟨50000, by decide⟩]
        i).getCurrentState = if i = 0 then .slave else .master) ∧
    (∀ i : Fin 3, (crowd duelCrowd (fun _ => 0) (fun _ => (boot 0).2)
      [throw ⟨20, by decide⟩ fun _ => ⟨60000, by decide⟩, throw ⟨30, by decide⟩ fun _ => ⟨40, by decide⟩,
       throw ⟨10000, by decide⟩ fun _ => ⟨50000, by decide⟩] i).getCurrentState = .master) ∧
    beatsTo duelCrowd 1 [throw ⟨20, by decide⟩ fun _ => ⟨60000, by decide⟩,
       throw ⟨30, by decide⟩ fun _ => ⟨40, by decide⟩,
       throw ⟨10000, by decide⟩ fun _ => ⟨50000, by decide⟩] = 2 := by
  refine ⟨fun _ => ⟨0, _, boot_run 0⟩, by decide +kernel, by decide +kernel, by decide +kernel⟩

open Classical in
/-- The theorem applies to these three devices. -/
example (T : Nat) :
    (Finset.univ.filter fun w : Fin T → Throw 3 (65533 * 65534) =>
        ∃ i, (∀ l, l <:+ List.ofFn w →
            (crowd duelCrowd (fun _ => 0) (fun _ => (boot 0).2) l i).getCurrentState = .master) ∧
          10 ≤ beatsTo duelCrowd i (List.ofFn w)).card * (2 * 65533) ^ 10 ≤
      3 * (65533 + 2 * 5) ^ 10 * Fintype.card (Fin T → Throw 3 (65533 * 65534)) :=
  several_masters_odds evenDraws_demo (fun _ => ⟨0, _, boot_run 0⟩) _ _ T 10

/-- Three devices: a heartbeat reaches two of them every 1250 ms, five times; the third does nothing. -/
def informedCrowd (l : List (Throw 3 (65533 * 65534))) (i : Fin 3) : Option Slot :=
  if i = 2 then none
  else if l.length < 5 then
    some (.hear (BitVec.ofNat 32 (1250 * (l.length + 1))) ⟨0, .heartbeat, 4, Vector.replicate 58 0⟩)
  else some (.other (.radioTick 6251 none))

theorem informedCrowd_last {i : Fin 3} (hi : i ≠ 2) (l : List (Throw 3 (65533 * 65534))) :
    lastReachedIn informedCrowd i 0 l = 1250 * min l.length 5 := by
  induction l with
  | nil => rfl
  | cons ω l ih =>
    simp only [lastReachedIn, informedCrowd, if_neg hi]
    by_cases h : l.length < 5
    · rw [if_pos h]
      simp only [BitVec.toNat_ofNat, List.length_cons]
      omega
    · rw [if_neg h]
      simp only [ih, List.length_cons]
      omega

theorem informedCrowd_time {i : Fin 3} {slot : Slot} {l : List (Throw 3 (65533 * 65534))}
    (h : informedCrowd l i = some slot) :
    i ≠ 2 ∧ slot.time = if l.length < 5 then 1250 * (l.length + 1) else 6251 := by
  simp only [informedCrowd] at h
  by_cases hi : i = 2
  · rw [if_pos hi] at h; cases h
  · rw [if_neg hi] at h
    refine ⟨hi, ?_⟩
    by_cases hl : l.length < 5
    · rw [if_pos hl] at h ⊢
      rw [← Option.some.inj h]
      simp only [Slot.time, BitVec.toNat_ofNat]
      omega
    · rw [if_neg hl] at h ⊢
      rw [← Option.some.inj h]
      rfl

theorem informedCrowd_kept (i : Fin 3) : InformedIn informedCrowd i (0 : U32).toNat := by
  refine ⟨?_, ?_, ?_, ?_, ?_⟩
  · intro l now p hp
    simp only [informedCrowd] at hp
    split at hp
    · cases hp
    · split at hp
      · have hp := Option.some.inj hp
        injection hp with _ hp
        rw [← hp]
        exact .inl rfl
      · have hp := Option.some.inj hp
        cases hp
  · intro l slot hs
    obtain ⟨hi, ht⟩ := informedCrowd_time hs
    rw [ht, show (0 : U32).toNat = 0 from rfl, informedCrowd_last hi]
    split <;> omega
  · intro l slot hs
    obtain ⟨hi, ht⟩ := informedCrowd_time hs
    rw [ht, show (0 : U32).toNat = 0 from rfl, informedCrowd_last hi]
    split <;> omega
  · intro l slot hs
    obtain ⟨hi, ht⟩ := informedCrowd_time hs
    rw [ht]
    split <;> omega
  · intro l now p hp
    simp only [informedCrowd] at hp
    split at hp
    · cases hp
    · split at hp
      · have hp := Option.some.inj hp
        cases hp
      · have hp := Option.some.inj hp
        cases hp

theorem informedCrowd_slaves : ∀ i ∈ (Finset.univ : Finset (Fin 3)), ∃ t₀ h t,
    Run .arduino t₀ h ((fun _ => fresh) i) ∧ Clock t₀ h ∧ ProperUse h ∧
      ((fun _ => fresh) i).getCurrentState = .slave ∧ Sign t₀ h t ∧ InformedIn informedCrowd i t.toNat := by
  intro i _
  refine ⟨0, [], 0, fresh_run, ⟨?_, ?_⟩, fun _ k => absurd k List.not_mem_nil, informed_slave_demo.2.2.2.1, .inl rfl,
    informedCrowd_kept i⟩
  · simp
  · simp

/-- Luck with which the devices stay slaves, and the odd luck, each heartbeat with the number of the first, with
which those that run take over. -/
theorem informed_crowd_demo :
    (∀ i : Fin 3, (crowd informedCrowd (fun _ => 0) (fun _ => fresh)
      [throw ⟨25, by decide⟩ fun _ => ⟨0, by decide⟩, throw ⟨24, by decide⟩ fun _ => ⟨0, by decide⟩,
       throw ⟨23, by decide⟩ fun _ => ⟨0, by decide⟩, throw ⟨22, by decide⟩ fun _ => ⟨0, by decide⟩,
       throw ⟨21, by decide⟩ fun _ => ⟨0, by decide⟩, throw ⟨20, by decide⟩ fun _ => ⟨0, by decide⟩]
        i).getCurrentState = .slave) ∧
    (∀ i : Fin 3, (crowd informedCrowd (fun _ => 0) (fun _ => fresh)
      (List.replicate 6 (throw ⟨20, by decide⟩ fun _ => ⟨0, by decide⟩)) i).getCurrentState =
        if i = 2 then .slave else .master) := by
  refine ⟨by decide +kernel, by decide +kernel⟩

open Classical in
/-- The theorem applies to these devices. -/
example (T : Nat) :
    (Finset.univ.filter fun w : Fin T → Throw 3 (65533 * 65534) =>
        ∃ i ∈ (Finset.univ : Finset (Fin 3)), ∃ l, l <:+ List.ofFn w ∧ reachedIn informedCrowd i l ≤ 5 ∧
          (crowd informedCrowd (fun _ => 0) (fun _ => fresh) l i).getCurrentState = .master).card * 65533 ^ 4 ≤
      (Finset.univ : Finset (Fin 3)).card * ((5 + 1) * 5 ^ 4) *
        Fintype.card (Fin T → Throw 3 (65533 * 65534)) :=
  informed_crowd_odds ⟨65534, rfl⟩ _ _ _ informedCrowd_slaves T 5

end Firefly.Props
