import Verif.Lemmas.History
import Verif.Lemmas.TwoMasters
import Verif.Spec.Memory

/-! # What a device remembers are the ids of what it sent -/

namespace Firefly
open Spec

/-- Between two states of a device its memory of ids has grown by what it sent. -/
def Node.Grows (s s' : Node) : Prop :=
  ∃ l : List Packet, s'.sent = s.sent ++ l ∧ s'.nm = l.foldl (fun m p => m.push p.id) s.nm

theorem Node.Grows.refl (s : Node) : s.Grows s := ⟨[], by simp, rfl⟩

theorem Node.TickCase.grows {plat now rx} {s s' : Node} (h : Node.TickCase plat now rx s s') :
    s.Grows s' := by
  cases h with
  | slaveQuiet | masterQuiet => exact .refl s
  | takeOver | beat | change | «repeat» => exact ⟨[_], rfl, rfl⟩
  | slaveHeartbeat | slaveClaim => rw [Node.armSlaveTimeout_eq]; exact ⟨[_], rfl, rfl⟩
  | slaveEffect | slaveControl | other => exact ⟨[_], rfl, rfl⟩
  | electionWon p => exact ⟨[p, _], by simp [Node.afterSend, Node.afterAccept]; rfl, rfl⟩
  | electionLost | masterClaim =>
    unfold Node.afterBeginSlave
    rw [Node.armSlaveTimeout_eq]; exact ⟨[_], rfl, rfl⟩
  | masterEffect | masterControl => exact ⟨[_], rfl, rfl⟩

theorem Node.step_grows {plat op} {s s' : Node} (wf : s.WF) (h : Op.step plat op s = .ok s') :
    s.Grows s' := by
  cases op with
  | radioTick now rx =>
    rcases Node.radioTick_result (plat := plat) (now := now) (rx := rx) wf with
      ⟨s'', h2, hc⟩ | ⟨_, h2⟩ | ⟨_, h2⟩
    · have h : s.radioTick plat now rx = .ok s' := h
      rw [h2] at h; cases h; exact hc.grows
    · have h : s.radioTick plat now rx = .ok s' := h
      rcases h2 with ⟨h2, _⟩ 
      rw [h2] at h; cases h
    · have h : s.radioTick plat now rx = .ok s' := h
      rcases h2 with ⟨h2, _⟩ 
      rw [h2] at h; cases h
  | setEffect now p =>
    have h : s.setEffect plat now p = .ok s' := h
    rw [Node.setEffect_eq wf.idx] at h
    split at h
    · cases h
    · cases h; exact ⟨[_], rfl, rfl⟩
  | setNumPalettes | setNumEffects | endTick => cases h; exact ⟨[], by simp [Node.setNumPalettes, Node.setNumEffects], rfl⟩

theorem push_all {m : NM} {h : List U16} (hr : m.Repr h) (l : List Packet) :
    (l.foldl (fun m p => m.push p.id) m).Repr ((l.map (·.id)).reverse ++ h) := by
  induction l generalizing m h with
  | nil => exact hr
  | cons p l ih =>
    have := ih (TwoMasters.repr_push hr p.id)
    simpa using this

theorem Run.remembers {plat t₀ h s} (r : Firefly.Run plat t₀ h s) :
    s.nm.Repr ((s.sent.map (·.id)).reverse) := by
  obtain ⟨rand, z, z', x⟩ := r
  induction x with
  | nil => exact NM.repr_init
  | @cons h s op s' x hst ih =>
    obtain ⟨l, h1, h2⟩ := Node.step_grows (Run.wf ⟨rand, z, z', x⟩) hst
    rw [h1, h2, List.map_append, List.reverse_append]
    exact push_all ih l

end Firefly
