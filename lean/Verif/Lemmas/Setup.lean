import Verif.Model.Setup
import Verif.Lemmas.Seed
import Verif.Lemmas.Board

/-! # Switching on an LED board: lemmas -/

namespace Firefly
open Spec

/-- A slave whose time-out is set for the time `D`. -/
def WaitsFor (D : Nat) (s : Node) : Prop := s.state = .slave ∧ s.timers.heartbeat.toNat = D ∧ D ≠ 0

theorem WaitsFor.quiet {D : Nat} {s s' : Node} {now : U32} {rx : Option Packet} (w : WaitsFor D s)
    (wf : s.WF) (hd : s.delivered rx = none) (hl : D < now.toNat)
    (h : s.radioTick .arduino now rx = .ok s') : s'.state = .master := by
  refine (quiet_slave wf w.1 hd h).1.2 ⟨?_, by rw [BitVec.lt_def, w.2.1]; exact hl⟩
  intro h0
  have := w.2.1
  rw [h0] at this
  exact w.2.2 this.symm

theorem WaitsFor.other {D : Nat} {s s' : Node} {now : U32} {rx : Option Packet} {p : Packet}
    (w : WaitsFor D s) (wf : s.WF) (hd : s.delivered rx = some p) (hp : p.type ≠ .heartbeat)
    (hp' : p.type ≠ .claimMaster) (h : s.radioTick .arduino now rx = .ok s') : WaitsFor D s' := by
  cases Node.radioTick_cases wf h with
  | slaveQuiet e | masterQuiet e | takeOver e | beat e | change e | «repeat» e => rw [hd] at e; cases e
  | slaveHeartbeat q e _ k | slaveClaim q e _ k =>
    rw [hd] at e
    cases e
    first | exact absurd k hp | exact absurd k hp'
  | slaveEffect q e => simpa [WaitsFor, Node.afterSlaveEffect] using w
  | slaveControl q e => exact w
  | other q n k e => exact w
  | electionWon _ _ e | electionLost _ _ e | masterClaim _ _ e | masterEffect _ _ e
  | masterControl _ _ e => rw [w.1] at e; cases e

theorem master_quiet {s s' : Node} {now : U32} {rx : Option Packet} (hs : s.state = .master)
    (wf : s.WF) (hd : s.delivered rx = none) (h : s.radioTick .arduino now rx = .ok s') :
    s'.state = .master := by
  cases Node.radioTick_cases wf h with
  | slaveQuiet _ e | takeOver _ e => rw [hs] at e; cases e
  | masterQuiet | beat | «repeat» => exact hs
  | change => exact hs
  | slaveHeartbeat _ e | slaveClaim _ e | slaveEffect _ e | slaveControl _ e | other _ _ _ e
  | electionWon _ e | electionLost _ e | masterClaim _ e | masterEffect _ e | masterControl _ e =>
    rw [hd] at e; cases e

theorem radioTick_tickRun {s s' : Node} {now : U32} {rx : Option Packet} (wf : s.WF)
    (h : s.radioTick .arduino now rx = .ok s') : s'.tickRun = s.tickRun := by
  cases Node.radioTick_cases wf h <;> rfl

theorem board_waits {env : Board.Env} {t₀ : U32} {rand : Rand} (hw : t₀.toNat + 7000 < 2 ^ 32) :
    WaitsFor (t₀.toNat + 5000 + rand 0 % 2000) (Board.init env t₀ rand).node := by
  have e : (Board.init env t₀ rand).node.timers.heartbeat =
      t₀ + BitVec.ofNat 32 (5000 + rand 0 % 2000) := by
    simp only [Board.init, Node.setNumEffects, Node.setNumPalettes, Node.init, Node.beginSlave,
      Node.armSlaveTimeout_eq]
  have hr := Nat.mod_lt (rand 0) (show 2000 > 0 by decide)
  refine ⟨rfl, ?_, by omega⟩
  rw [e, BitVec.toNat_add, BitVec.toNat_ofNat]
  omega

/-- A board that runs (its battery is not low) ticks its state machine once in an iteration. -/
theorem loop_tick {env : Board.Env} {inp : Board.Input} {s s' : Board.State}
    (hon : env.program = .fancyNode → (Battery.step .fancyNode s.low inp.battery).active = true)
    (h : Board.loop env inp s = .ok s') :
    ∃ fs, Board.tick inp.first inp.second s.node = .ok (s'.node, fs) ∧
      (env.program = .fancyNode → s'.low = (Battery.step .fancyNode s.low inp.battery).low) := by
  unfold Board.loop at h
  split at h
  · rename_i hp
    simp only [Board.loopNode, bind, Except.bind, pure, Except.pure] at h
    split at h
    · cases h
    · rename_i a ha
      split at h
      · cases h
      · cases h
        exact ⟨a.2, ha, fun k => by rw [hp] at k; cases k⟩
  · rename_i hp
    simp only [Board.loopFancyNode, bind, Except.bind, pure, Except.pure, hon hp, Bool.not_true,
      Bool.false_eq_true, if_false] at h
    cases hsd : (Battery.step .fancyNode s.low inp.battery).shutDown with
    | false =>
      rw [hsd] at h
      simp only [Bool.false_eq_true, if_false] at h
      split at h
      · cases h
      · rename_i a ha
        split at h
        · cases h
        · cases h
          exact ⟨a.2, ha, fun _ => rfl⟩
    | true =>
      rw [hsd] at h
      simp only [if_true] at h
      split at h
      · cases h
      · split at h
        · cases h
        · rename_i a ha
          split at h
          · cases h
          · cases h
            exact ⟨a.2, ha, fun _ => rfl⟩

/-- The two radio ticks of a tick. -/
theorem tick_steps {l₁ l₂ : Board.Listen} {s s' : Node} {fs : List (List U8)}
    (h : Board.tick l₁ l₂ s = .ok (s', fs)) :
    ∃ rx a, l₁.packet = .ok rx ∧ s.radioTick .arduino l₁.now rx = .ok a ∧
      (a.tickRun = false → s' = { a with tickRun := true }) ∧
      (a.tickRun = true → ∃ rx' b, l₂.packet = .ok rx' ∧ a.radioTick .arduino l₂.now rx' = .ok b ∧
        s' = { b with tickRun := true }) := by
  have one : ∀ {l : Board.Listen} {s : Node} {x : Node × List (List U8)},
      Board.radioTick l s = .ok x → ∃ rx, l.packet = .ok rx ∧ s.radioTick .arduino l.now rx = .ok x.1 := by
    intro l s x h
    simp only [Board.radioTick, bind, Except.bind, pure, Except.pure] at h
    split at h
    · cases h
    · rename_i rx hrx
      split at h
      · cases h
      · rename_i b hb
        split at h
        · cases h
        · cases h
          exact ⟨rx, hrx, hb⟩
  simp only [Board.tick, bind, Except.bind, pure, Except.pure] at h
  split at h
  · cases h
  · rename_i a ha
    obtain ⟨rx, h1, h2⟩ := one ha
    refine ⟨rx, a.1, h1, h2, ?_, ?_⟩
    · intro k
      rw [k] at h
      simp only [Bool.false_eq_true, if_false] at h
      cases h
      rfl
    · intro k
      rw [k] at h
      simp only [if_true] at h
      split at h
      · cases h
      · rename_i b hb
        obtain ⟨rx', h3, h4⟩ := one hb
        cases h
        exact ⟨rx', b.1, h3, h4, rfl⟩

end Firefly
