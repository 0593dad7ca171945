import Verif.Model.Seed
import Verif.Lemmas.Timeouts

/-! # The first time-out: lemmas -/

namespace Firefly
open Spec

/-- The numbers as one supply: the constructor draws once. -/
def joined (lib seeded : Rand) : Rand
  | 0 => lib 0
  | k + 1 => seeded k

theorem powerUp_init {t₀ lib seeded junk junk'} :
    powerUp t₀ lib seeded junk junk' = Node.init t₀ (joined lib seeded) junk junk' := by
  simp only [powerUp, Node.init, Node.beginSlave, Node.armSlaveTimeout_eq]
  rfl

theorem powerUp_wf {t₀ lib seeded junk junk'} : (powerUp t₀ lib seeded junk junk').WF :=
  powerUp_init ▸ Node.WF.init

theorem powerUp_timer {t₀ : U32} {lib seeded : Rand} {junk junk'} :
    (powerUp t₀ lib seeded junk junk').timers.heartbeat = t₀ + BitVec.ofNat 32 (5000 + lib 0 % 2000) := by
  simp only [powerUp, Node.init, Node.beginSlave, Node.armSlaveTimeout_eq]

theorem deaf_slave {t₀ : U32} {lib seeded : Rand} {junk junk'} {h : List Entry} {s : Node}
    (hw : t₀.toNat + 7000 < 2 ^ 32)
    (x : Exec .arduino (powerUp t₀ lib seeded junk junk') h s) (deaf : ∀ e ∈ h, Entry.heard e = none)
    (early : ∀ e ∈ h, e.op.time.toNat ≤ t₀.toNat + 5000 + lib 0 % 2000) :
    s.state = .slave ∧ s.timers.heartbeat = t₀ + BitVec.ofNat 32 (5000 + lib 0 % 2000) := by
  induction x with
  | nil => exact ⟨rfl, powerUp_timer⟩
  | @cons h s op s' hx hst ih =>
    obtain ⟨i1, i2⟩ := ih (fun e he => deaf e (List.mem_cons_of_mem _ he))
      (fun e he => early e (List.mem_cons_of_mem _ he))
    have d := deaf _ List.mem_cons_self
    have t := early _ List.mem_cons_self
    have wf := hx.wf powerUp_wf
    cases op with
    | radioTick now rx =>
      have hd : s.delivered rx = none := by rw [← heard_tick (s' := s') (now := now) wf]; exact d
      have q := quiet_slave wf i1 hd hst
      have t' : now.toNat ≤ t₀.toNat + 5000 + lib 0 % 2000 := t
      have hn : s'.state ≠ .master := by
        intro k
        have k' := (q.1.1 k).2
        rw [i2, BitVec.lt_def, BitVec.toNat_add, BitVec.toNat_ofNat] at k'
        omega
      rw [q.2 hn]
      exact ⟨i1, i2⟩
    | setEffect now p =>
      have e : s.setEffect .arduino now p = .ok s' := hst
      rw [Node.setEffect_eq wf.idx, if_neg (by simp)] at e
      cases e
      exact ⟨i1, i2⟩
    | setNumPalettes _ _ | setNumEffects _ _ | endTick _ =>
      cases hst
      exact ⟨i1, i2⟩

end Firefly
