import Verif.Lemmas.Seed
import Verif.Props.Draws

/-! # The first time-out is not random (C159) -/

namespace Firefly.Props
open Spec Demo

/-- What happens to a device after power-up is one of the histories that all other theorems are about. -/
theorem powerUp_run {t₀ : U32} {lib seeded : Rand} {junk junk' : PType × Vector U8 58} {h : List Entry}
    {s : Node} (x : Exec .arduino (powerUp t₀ lib seeded junk junk') h s) : Run .arduino t₀ h s :=
  ⟨joined lib seeded, junk, junk', powerUp_init ▸ x⟩

/-- **C159.** There is a moment `D`, 5 to 7 seconds after power-up, such that every device that hears nothing
is a slave until `D` and turns master when it runs after `D`, whatever its seed: `D` depends only on the
time of power-up and on the numbers that the C library gives when it is not seeded. -/
theorem first_takeover (t₀ : U32) (lib : Rand) (hw : t₀.toNat + 7000 < 2 ^ 32) :
    ∃ D : Nat, t₀.toNat + 5000 ≤ D ∧ D < t₀.toNat + 7000 ∧
      ∀ (seeded : Rand) (junk junk' : PType × Vector U8 58) (h : List Entry) (s : Node),
        Exec .arduino (powerUp t₀ lib seeded junk junk') h s →
        (∀ e ∈ h, Entry.heard e = none) → (∀ e ∈ h, e.op.time.toNat ≤ D) →
        s.getCurrentState = .slave ∧
        ∀ (now : U32) (rx : Option Packet), Quiet s rx →
          ∃ s', s.radioTick .arduino now rx = .ok s' ∧ (s'.getCurrentState = .master ↔ D < now.toNat) := by
  have hlt := Nat.mod_lt (lib 0) (show 2000 > 0 by decide)
  refine ⟨t₀.toNat + 5000 + lib 0 % 2000, by omega, by omega, ?_⟩
  intro seeded junk junk' h s x deaf early
  obtain ⟨i1, i2⟩ := deaf_slave hw x deaf early
  refine ⟨i1, fun now rx hq => ?_⟩
  have wf := x.wf powerUp_wf
  rcases Node.radioTick_result (plat := .arduino) (now := now) (rx := rx) wf with ⟨t, ht, _⟩ | hu | hu
  · refine ⟨t, ht, ?_⟩
    have q := (quiet_slave wf i1 (hq.delivered wf) ht).1
    have hb : s.timers.heartbeat.toNat = t₀.toNat + 5000 + lib 0 % 2000 := by
      rw [i2, BitVec.toNat_add, BitVec.toNat_ofNat]
      omega
    have hne : s.timers.heartbeat ≠ 0 := by
      intro h0
      rw [h0] at hb
      have : (0 : U32).toNat = 0 := rfl
      omega
    rw [BitVec.lt_def, hb] at q
    exact q.trans ⟨fun k => k.2, fun k => ⟨hne, k⟩⟩
  · cases hu.1
  · cases hu.1

/-- **C159.** So any number of devices that are switched on together all take over, whatever their seeds,
unless one of them hears another: if each hears nothing until it runs for the first time after `D`, all are
masters then. -/
theorem first_takeover_together (t₀ : U32) (lib : Rand) (hw : t₀.toNat + 7000 < 2 ^ 32) :
    ∃ D : Nat, t₀.toNat + 5000 ≤ D ∧ D < t₀.toNat + 7000 ∧
      ∀ (n : Nat) (seeded : Fin n → Rand) (junk junk' : Fin n → PType × Vector U8 58)
        (h : Fin n → List Entry) (s : Fin n → Node) (now : Fin n → U32) (rx : Fin n → Option Packet),
        (∀ i, Exec .arduino (powerUp t₀ lib (seeded i) (junk i) (junk' i)) (h i) (s i)) →
        (∀ i, ∀ e ∈ h i, Entry.heard e = none) → (∀ i, ∀ e ∈ h i, e.op.time.toNat ≤ D) →
        (∀ i, Quiet (s i) (rx i)) → (∀ i, D < (now i).toNat) →
        ∀ i, ∃ s', (s i).radioTick .arduino (now i) (rx i) = .ok s' ∧ s'.getCurrentState = .master := by
  obtain ⟨D, h1, h2, h3⟩ := first_takeover t₀ lib hw
  refine ⟨D, h1, h2, ?_⟩
  intro n seeded junk junk' h s now rx x deaf early hq hnow i
  obtain ⟨s', k1, k2⟩ := (h3 (seeded i) (junk i) (junk' i) (h i) (s i) (x i) (deaf i) (early i)).2 (now i) (rx i)
    (hq i)
  exact ⟨s', k1, k2.2 (hnow i)⟩

/-! ### Concrete case -/

/-- Two devices with different seeds: slaves after a tick at 5123 ms, masters after a tick at 5124 ms, and
with different packet numbers. -/
theorem first_takeover_demo :
    ∀ i : Fin 2, ∃ (h : List Entry) (s s' : Node),
      Exec .arduino (powerUp 0 (fun _ => 123) (fun k => 100 * i.val + k) (.heartbeat, Vector.replicate 58 0)
        (.heartbeat, Vector.replicate 58 0)) h s ∧ h.length = 2 ∧
      (∀ e ∈ h, Entry.heard e = none) ∧ (∀ e ∈ h, e.op.time.toNat ≤ 5123) ∧
      s.getCurrentState = .slave ∧ s.radioTick .arduino 5124 none = .ok s' ∧
      s'.getCurrentState = .master ∧ s'.sent.map (fun p => p.id.toNat) = [2 + 100 * i.val] := by
  intro i
  have h : ∀ i : Fin 2, (match runOps .arduino [.setNumEffects 1 10, .radioTick 5123 none] []
      (powerUp 0 (fun _ => 123) (fun k => 100 * i.val + k) (.heartbeat, Vector.replicate 58 0)
        (.heartbeat, Vector.replicate 58 0)) with
      | some (h, s) => h.length == 2 && h.all (fun e => (Entry.heard e).isNone && e.op.time.toNat ≤ 5123) &&
          s.getCurrentState == .slave &&
          (match s.radioTick .arduino 5124 none with
          | .ok s' => s'.getCurrentState == .master && s'.sent.map (fun p => p.id.toNat) == [2 + 100 * i.val]
          | .error _ => false)
      | none => false) = true := by decide +kernel
  have k := h i
  split at k
  · rename_i h s hr
    simp only [Bool.and_eq_true, List.all_eq_true, beq_iff_eq, decide_eq_true_eq] at k
    obtain ⟨⟨⟨k1, k2⟩, k3⟩, k4⟩ := k
    split at k4
    · rename_i s' hs
      simp only [Bool.and_eq_true, beq_iff_eq] at k4
      exact ⟨h, s, s', runOps_exec .nil hr, k1, fun e he => Option.isNone_iff_eq_none.1 (k2 e he).1,
        fun e he => (k2 e he).2, k3, hs, k4.1, k4.2⟩
    · cases k4
  · cases k

end Firefly.Props
