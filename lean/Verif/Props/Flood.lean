import Verif.Lemmas.Flood
import Verif.Props.Mesh

/-! # Floods with random ids (C166) -/

namespace Firefly.Props
open Spec

section
variable {K : Nat}

open Classical in
/-- **C166.** Of all random numbers for the ids of `k ≤ 5` packets, at most `k * (k - 1) / 2 / 65533` are such
that on some mesh, with some contents and some lossless schedule (even one that knows all the numbers
beforehand), the flood ends and a connected node has not delivered a packet exactly once. -/
theorem flood_odds (hK : 65533 ∣ K) {k : Nat} (hk : k ≤ 5) :
    (Finset.univ.filter fun w : Fin k → Fin K =>
        ∃ (n : Nat) (nbrs : Fin n → List (Fin n)) (s : Net n),
          DrawnFlood nbrs (List.ofFn fun x => (w x).val) s ∧ FellShort nbrs s).card * (2 * 65533) ≤
      k * (k - 1) * Fintype.card (Fin k → Fin K) := by
  refine Nat.le_trans (Nat.mul_le_mul_right _ (Finset.card_le_card ?_)) (twins_any hK)
  intro w hw
  simp only [Finset.mem_filter, Finset.mem_univ, true_and] at hw ⊢
  obtain ⟨n, nbrs, s, hf, hq, j, i, p, hj, hc, hne⟩ := hw
  obtain ⟨hr, hid⟩ := drawnFlood_spec hf
  apply Classical.byContradiction
  intro hno
  have hlen : s.originated.length = k := by
    have := congrArg List.length hid
    simpa [ids] using this
  have hnd : (ids s.originated).Nodup := by
    rw [hid, List.map_ofFn, List.nodup_ofFn]
    intro a b hab
    apply Classical.byContradiction
    intro hne
    refine hno ⟨a, b, hne, ?_⟩
    have := congrArg BitVec.toNat hab
    simp only [Function.comp_apply, drawnId_toNat] at this
    show (w a).val % 65533 = (w b).val % 65533
    omega
  have hnz : (0 : U16) ∉ ids s.originated := by
    rw [hid]
    intro h0
    obtain ⟨u, _, hu⟩ := List.mem_map.1 h0
    have := congrArg BitVec.toNat hu
    rw [drawnId_toNat] at this
    simp at this
  exact hne (flood_reaches_all hr hq (by omega) hnd hnz hj hc)

end

/-! ### Concrete cases -/

/-- Two nodes in mutual range. A claim of the first is heard by the second, whose echo is heard by the first;
then a heartbeat of the first reaches the second. With the same number for both ids the second node ignores the
heartbeat, with different numbers it delivers it. -/
theorem flood_odds_demo :
    (∃ s : Net 2, DrawnFlood pair [20, 20] s ∧ FellShort pair s) ∧
    (∃ s : Net 2, DrawnFlood pair [21, 20] s ∧ s.flight = [] ∧ s.delivered.length = 2 ∧ ¬ FellShort pair s) ∧
    Connected pair 0 1 := by
  have c : Connected pair 0 1 := .hop .refl (by decide)
  refine ⟨⟨_, .medium (k := .hear) (.originate 0 ⟨0, .heartbeat, 4, Vector.replicate 58 0⟩ (fun _ => 20)
    (.medium (k := .hear) (.medium (k := .hear)
      (.originate 0 ⟨0, .claimMaster, 0, Vector.replicate 58 0⟩ (fun _ => 20) .boot rfl)
      (by decide) (by decide) (.hear _ 1 _ [] [] rfl rfl)) (by decide) (by decide) (.hear _ 0 _ [] [] rfl rfl))
    rfl) (by decide) (by decide) (.hear _ 1 _ [] [] rfl rfl), rfl, 0, 1,
      ⟨22, .heartbeat, 4, Vector.replicate 58 0⟩, by decide +kernel, c, by decide +kernel⟩, ?_, c⟩
  refine ⟨_, .medium (k := .hear) (.medium (k := .hear)
    (.originate 0 ⟨0, .heartbeat, 4, Vector.replicate 58 0⟩ (fun _ => 21)
    (.medium (k := .hear) (.medium (k := .hear)
      (.originate 0 ⟨0, .claimMaster, 0, Vector.replicate 58 0⟩ (fun _ => 20) .boot rfl)
      (by decide) (by decide) (.hear _ 1 _ [] [] rfl rfl)) (by decide) (by decide) (.hear _ 0 _ [] [] rfl rfl))
    rfl) (by decide) (by decide) (.hear _ 1 _ [] [] rfl rfl)) (by decide) (by decide)
    (.hear _ 0 _ [] [] rfl rfl), rfl, rfl, ?_⟩
  rintro ⟨_, j, i, p, hj, _, h⟩
  refine absurd ((?_ : ∀ x ∈ _, ∀ i : Fin 2, List.count (i, x.2) _ = if i = x.1 then 0 else 1) (j, p) hj i) h
  decide +kernel

end Firefly.Props
