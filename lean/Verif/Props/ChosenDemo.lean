import Verif.Props.Chosen

/-! # Where a choice has to be entered: concrete networks (C153) -/

namespace Firefly.Props
open Spec HwDemo

/-- The button is pressed at 8100. -/
def HwDemo.isPress (e : Entry) : Bool :=
  match e.op with
  | .setEffect now p => decide (now = 8100) && decide (p = pressed)
  | _ => false

/-- A concrete case of the first part of C153 with `K = 2`: the button of the master is pressed at 8100,
the others follow from 12460 on, and the bound is 13427. -/
theorem choice_on_master_demo :
    Timeline nbrs (fun _ => 0) (fun _ => 0) c₀ (alongNet scriptM) (alongTime scriptM) 34 ∧
    JustHeard 1 (fun _ => 0) (fun _ => 0) c₀ (alongTime scriptM 0) ∧
    Attentive 1 (fun _ => 0) c₀ (alongNet scriptM) (alongTime scriptM) 34 200 ∧
    (∀ i, i ≠ 1 → OneOfFour 1 i (fun _ => 0) c₀ (alongNet scriptM) (alongTime scriptM) 34 150 ∧
      OneOf 2 1 i (fun _ => 0) c₀ (alongNet scriptM) (alongTime scriptM) 34 60) ∧
    (∀ i, Recent nbrs i (fun _ => 0) c₀ (alongNet scriptM 34) 60) ∧
    (∃ e, LastOnMaster 1 (fun _ => 0) c₀ (alongNet scriptM 34) 60 e pressed ∧
      wall (fun _ => 0) (1 : Fin 3) e = 8100 ∧
      8100 + 1 + 2 * 60 + 2 * (2003 + 3 * 200) < alongTime scriptM 34 ∧
      alongTime scriptM 34 ≤ 8100 + heldFor pressed) ∧
    (∀ i, i ≠ 1 → ¬ Carries ((alongNet scriptM 22).node i).getSetEffect pressed ∧
      Carries ((alongNet scriptM 34).node i).getSetEffect pressed) := by
  have reps : ∀ k < 35, ∀ b ∈ since c₀ (alongNet scriptM k) 1, ∀ q ∈ Entry.transmitted b,
      idle b = true ∧ q.type = b.pre.setEffectPacket.type → (Entry.time b).toNat ∈ [10200, 12400] := by decide +kernel
  have hears : ∀ k < 35, 12460 < alongTime scriptM k → ∀ i : Fin 3, i ≠ 1 →
      ∀ b ∈ since c₀ (alongNet scriptM k) 1, (Entry.time b).toNat = 12400 →
      ((Entry.transmitted b).all fun q => (since c₀ (alongNet scriptM k) i).any fun e =>
        ((Entry.heard e).any fun p => decide (Carries p q)) &&
        decide (12400 ≤ (Entry.time e).toNat) && decide ((Entry.time e).toNat ≤ 12460)) = true := by
    decide +kernel
  have ent : (since c₀ (alongNet scriptM 34) 1).any enters = true ∧
      (∀ e ∈ since c₀ (alongNet scriptM 34) 1, enters e = true →
        isPress e = true) ∧
      ∀ i : Fin 3, i ≠ 1 → ∀ e ∈ since c₀ (alongNet scriptM 34) i, enters e = false := by
    decide +kernel
  refine ⟨along_timeline (by decide +kernel) (by decide +kernel) (by decide +kernel), c₀_just,
    attentive_of (by decide +kernel), fun i hi => ⟨one_of (by decide +kernel) (by decide +kernel) i hi,
    ?_⟩, fun i => recent_of ?_, ?_, by decide +kernel⟩
  · intro k hk bs hl hb hpw
    obtain ⟨a, b, rfl⟩ := two_of_length hl
    obtain ⟨a1, ⟨qa, a2⟩, a3⟩ := hb a (by simp)
    obtain ⟨b1, ⟨qb, b2⟩, b3⟩ := hb b (by simp)
    have idl : ∀ {e : Entry} {q}, Repeats e q → idle e = true := by
      intro e q h
      obtain ⟨now, rx, ho⟩ := h.tick
      simp [idle, ho, h.silent]
    have ta := reps k (by omega) a a1 qa (by rw [a2.sent]; simp) ⟨idl a2, a2.same.1⟩
    have tb := reps k (by omega) b b1 qb (by rw [b2.sent]; simp) ⟨idl b2, b2.same.1⟩
    have hab := (List.pairwise_cons.1 hpw).1 b (by simp)
    simp only [wall_zero] at hab a3 b3
    simp only [List.mem_cons, List.not_mem_nil, or_false] at ta tb
    have htb : (Entry.time b).toNat = 12400 := by omega
    have := hears k (by omega) (by omega) i hi b b1 htb
    rw [List.all_eq_true] at this
    have := this qb (by rw [b2.sent]; simp)
    rw [List.any_eq_true] at this
    obtain ⟨e, he, h⟩ := this
    rw [Bool.and_eq_true, Bool.and_eq_true, Option.any_eq_true] at h
    obtain ⟨⟨h1, h2⟩, h3⟩ := h
    have h2 := of_decide_eq_true h2
    have h3 := of_decide_eq_true h3
    obtain ⟨p, hp, hc⟩ := h1
    exact ⟨b, by simp, qb, b2, e, he, p, hp, of_decide_eq_true hc, by simp only [wall_zero]; omega,
      by simp only [wall_zero]; omega⟩
  · revert i; decide +kernel
  · obtain ⟨e1, e2, e3⟩ := ent
    obtain ⟨h₁, e, h₂, hsp, he, hl⟩ := split_last e1
    have hin : e ∈ since c₀ (alongNet scriptM 34) 1 := by rw [hsp]; simp
    have hop := e2 e hin he
    obtain ⟨pre, op, post⟩ := e
    cases op with
    | setEffect now p =>
      simp only [isPress, Bool.and_eq_true, decide_eq_true_eq] at hop
      obtain ⟨rfl, rfl⟩ := hop
      refine ⟨_, ⟨⟨8100, rfl⟩, ⟨h₁, h₂, hsp, fun a ha h => ?_⟩, fun i hi a ha h => ?_⟩, ?_,
        by decide +kernel, by decide +kernel⟩
      · rw [← enters_iff, hl a ha] at h; cases h
      · rw [← enters_iff, e3 i hi a ha] at h; cases h
      · rw [wall_zero]; rfl
    | _ => cases hop

/-- Executable form of `Untold`. -/
def HwDemo.told (e : Entry) : Bool :=
  enters e || (Entry.heard e).any fun p => decide (IsInstruction p)

theorem HwDemo.told_iff {e : Entry} : told e = false ↔ Untold e := by
  obtain ⟨pre, op, post⟩ := e
  cases op with
  | radioTick now rx =>
    simp only [told, enters, Untold, Bool.false_or]
    cases h : Entry.heard ⟨pre, .radioTick now rx, post⟩ <;> simp
  | _ => simp [told, enters, Untold, Entry.heard]

/-- A concrete case of the second part of C153: the button of device 2 is pressed at 8100, and the
master hears of it at 8150.  At 13650 devices 1 and 2 still follow it.  Device 0, which hears the
master well, has never heard of it. -/
theorem choice_by_radio_demo :
    Timeline nbrs (fun _ => 0) (fun _ => 0) c₀ (alongNet scriptR) (alongTime scriptR) 36 ∧
    JustHeard 1 (fun _ => 0) (fun _ => 0) c₀ (alongTime scriptR 0) ∧
    Attentive 1 (fun _ => 0) c₀ (alongNet scriptR) (alongTime scriptR) 36 200 ∧
    (∀ i, i ≠ 1 → OneOfFour 1 i (fun _ => 0) c₀ (alongNet scriptR) (alongTime scriptR) 36 150) ∧
    (∀ i, Recent nbrs i (fun _ => 0) c₀ (alongNet scriptR 36) 60) ∧
    (∃ e p, LastByRadio 1 (fun _ => 0) c₀ (alongNet scriptR 36) e p ∧ Carries p pressed ∧
      wall (fun _ => 0) (1 : Fin 3) e = 8150 ∧
      8150 + 60 < alongTime scriptR 6 ∧
      alongTime scriptR 36 ≤ 8150 + 1000 * requestedDelay p) ∧
    Carries ((alongNet scriptR 36).node 1).getSetEffect pressed ∧
    Carries ((alongNet scriptR 36).node 2).getSetEffect pressed ∧
    ¬ Carries ((alongNet scriptR 36).node 0).getSetEffect pressed := by
  have ent : (since c₀ (alongNet scriptR 36) 1).any told = true ∧
      (∀ e ∈ since c₀ (alongNet scriptR 36) 1, told e = true →
        ((Entry.heard e).any fun p => decide (IsInstruction p) && decide (Carries p pressed) &&
          decide (requestedDelay p = 7)) = true ∧ (Entry.time e).toNat = 8150) ∧
      ∀ i : Fin 3, ∀ e ∈ since c₀ (alongNet scriptR 36) i, enters e = true →
        (Entry.time e).toNat ≤ 8150 := by
    decide +kernel
  refine ⟨along_timeline (by decide +kernel) (by decide +kernel) (by decide +kernel), c₀_just,
    attentive_of (by decide +kernel), one_of (by decide +kernel) (by decide +kernel),
    fun i => recent_of ?_, ?_, by decide +kernel, by decide +kernel, by decide +kernel⟩
  · revert i; decide +kernel
  · obtain ⟨e1, e2, e3⟩ := ent
    obtain ⟨h₁, e, h₂, hsp, he, hl⟩ := split_last e1
    have hin : e ∈ since c₀ (alongNet scriptR 36) 1 := by rw [hsp]; simp
    obtain ⟨hop, ht⟩ := e2 e hin he
    rw [Option.any_eq_true] at hop
    obtain ⟨p, hp, hop⟩ := hop
    simp only [Bool.and_eq_true, decide_eq_true_eq] at hop
    obtain ⟨⟨h1, h2⟩, h3⟩ := hop
    refine ⟨e, p, ⟨hp, h1, ⟨h₁, h₂, hsp, fun a ha => told_iff.1 (hl a ha)⟩, fun i a ha h => ?_⟩, h2,
      by rw [wall_zero, ht], by decide +kernel, by rw [h3]; decide +kernel⟩
    simp only [wall_zero, ht]
    exact e3 i a ha (enters_iff.2 h)

end Firefly.Props
