import Verif.Lemmas.Odds
import Verif.Lemmas.Mesh
import Verif.Spec.Flood
import Mathlib.Logic.Equiv.Fin.Basic

/-! # Lemmas about floods with random ids (C166) -/

namespace Firefly
open Spec

/-- The id made of a draw. -/
def drawnId (u : Nat) : U16 := BitVec.ofNat 16 (2 + u % 65533)

theorem drawnId_toNat (u : Nat) : (drawnId u).toNat = 2 + u % 65533 := by
  have : u % 65533 < 65533 := Nat.mod_lt _ (by decide)
  rw [drawnId, BitVec.toNat_ofNat]
  omega

theorem drawnFlood_spec {n : Nat} {nbrs : Fin n → List (Fin n)} {l : List Nat} {s : Net n}
    (h : DrawnFlood nbrs l s) :
    Net.Reach .arduino nbrs (· ≠ .lose) s ∧ ids s.originated = l.map drawnId := by
  induction h with
  | boot => exact ⟨.boot, rfl⟩
  | originate i p r _ hs ih =>
    refine ⟨.step ih.1 (by decide) (.originate _ i p r hs), ?_⟩
    obtain ⟨-, -, -, h⟩ := NM.send_cases hs
    rw [randomRange] at h
    rw [if_neg (by decide)] at h
    simp only [Except.ok.injEq, Prod.mk.injEq] at h
    have e : ∀ (x : Fin n × Packet) (t : List (Fin n × Packet)), ids (x :: t) = x.2.id :: ids t :=
      fun _ _ => rfl
    rw [e, ih.2, List.map_cons]
    congr 1
    apply BitVec.eq_of_toNat_eq
    rw [drawnId_toNat, ← h.1]
    have : r.draw.1 % 65533 < 65533 := Nat.mod_lt _ (by decide)
    show (2 + r.draw.1 % 65533) % 65536 = _
    omega
  | medium _ ho hl hs ih =>
    refine ⟨.step ih.1 hl hs, ?_⟩
    rw [← ih.2]
    cases hs with
    | originate => exact absurd rfl ho
    | hear => rfl
    | lose => rfl
    | duplicate => rfl

variable {K : Nat}

/-- The packets `i` and `j` get the same id. -/
def twins {k : Nat} (w : Fin k → Fin K) (i j : Fin k) : Prop := (w i).val % 65533 = (w j).val % 65533

instance {k : Nat} (w : Fin k → Fin K) (i j : Fin k) : Decidable (twins w i j) :=
  inferInstanceAs (Decidable (_ = _))

theorem twins_one (hK : 65533 ∣ K) (c : Nat) :
    (∑ u : Fin K, if c = u.val % 65533 then 1 else 0) * 65533 ≤ K := by
  rw [← Finset.card_filter]
  have h := uniform_mod hK (fun x => c = x)
  have h1 : ((Finset.range 65533).filter fun x => c = x).card ≤ 1 := by
    rw [Finset.card_le_one]
    intro a ha b hb
    exact (Finset.mem_filter.1 ha).2.symm.trans (Finset.mem_filter.1 hb).2
  rw [h]
  exact Nat.le_trans (Nat.mul_le_mul_right K h1) (Nat.le_of_eq (Nat.one_mul K))

theorem twins_pair (hK : 65533 ∣ K) {k : Nat} {i j : Fin k} (hij : i ≠ j) :
    (∑ w : Fin k → Fin K, if twins w i j then 1 else 0) * 65533 ≤ Fintype.card (Fin k → Fin K) := by
  have hcard : Fintype.card (Fin k → Fin K) =
      Fintype.card (Fin K) * Fintype.card ({ x // x ≠ j } → Fin K) := by
    rw [Fintype.card_congr (Equiv.funSplitAt j (Fin K)), Fintype.card_prod]
  rw [hcard, ← (Equiv.funSplitAt j (Fin K)).symm.sum_comp, Fintype.sum_prod_type, Finset.sum_comm,
    Finset.sum_mul]
  calc _ ≤ ∑ _r : ({ x // x ≠ j } → Fin K), Fintype.card (Fin K) := by
        refine Finset.sum_le_sum fun r _ => ?_
        rw [Fintype.card_fin]
        refine Nat.le_trans (Nat.le_of_eq ?_) (twins_one hK ((r ⟨i, hij⟩).val % 65533))
        congr 1
        refine Finset.sum_congr rfl fun ω _ => ?_
        have hi : (Equiv.funSplitAt j (Fin K)).symm (ω, r) i = r ⟨i, hij⟩ := by
          simp [Equiv.funSplitAt, Equiv.piSplitAt, hij]
        have hj : (Equiv.funSplitAt j (Fin K)).symm (ω, r) j = ω := by
          simp [Equiv.funSplitAt, Equiv.piSplitAt]
        simp only [twins, hi, hj]
    _ = _ := by
        rw [Finset.sum_const, Finset.card_univ, nsmul_eq_mul, Nat.cast_id, Nat.mul_comm]

theorem twins_any (hK : 65533 ∣ K) {k : Nat} :
    (Finset.univ.filter fun w : Fin k → Fin K => ∃ i j, i ≠ j ∧ twins w i j).card * (2 * 65533) ≤
      k * (k - 1) * Fintype.card (Fin k → Fin K) := by
  have two : ∀ w : Fin k → Fin K, (if ∃ i j, i ≠ j ∧ twins w i j then 1 else 0) * 2 ≤
      ∑ p ∈ (Finset.univ : Finset (Fin k)).offDiag, if twins w p.1 p.2 then 1 else 0 := by
    intro w
    split
    · rename_i h
      obtain ⟨i, j, hij, hc⟩ := h
      rw [← Finset.card_filter]
      have : ({(i, j), (j, i)} : Finset (Fin k × Fin k)) ⊆
          (Finset.univ : Finset (Fin k)).offDiag.filter fun p => twins w p.1 p.2 := by
        intro p hp
        simp only [Finset.mem_insert, Finset.mem_singleton] at hp
        rcases hp with rfl | rfl
        · simp [Finset.mem_filter, hij, hc]
        · have hc' : twins w j i := hc.symm
          simp [Finset.mem_filter, hij.symm, hc']
      refine Nat.le_trans (Nat.le_of_eq ?_) (Finset.card_le_card this)
      rw [Finset.card_pair]
      intro e
      exact hij (congrArg Prod.fst e)
    · simp
  rw [Finset.card_filter]
  have h1 := Finset.sum_le_sum (s := (Finset.univ : Finset (Fin k → Fin K))) fun w _ => two w
  rw [← Finset.sum_mul, Finset.sum_comm] at h1
  have h2 : (∑ p ∈ (Finset.univ : Finset (Fin k)).offDiag,
      ∑ w : Fin k → Fin K, if twins w p.1 p.2 then 1 else 0) * 65533 ≤
      ∑ _p ∈ (Finset.univ : Finset (Fin k)).offDiag, Fintype.card (Fin k → Fin K) := by
    rw [Finset.sum_mul]
    refine Finset.sum_le_sum fun p hp => ?_
    exact twins_pair hK (by simpa using hp)
  rw [Finset.sum_const, Finset.offDiag_card, Finset.card_univ, Fintype.card_fin, nsmul_eq_mul,
    Nat.cast_id] at h2
  have hn : k * k - k = k * (k - 1) := by rw [Nat.mul_sub, Nat.mul_one]
  rw [hn] at h2
  rw [← Nat.mul_assoc]
  exact Nat.le_trans (Nat.mul_le_mul_right 65533 h1) h2

end Firefly
