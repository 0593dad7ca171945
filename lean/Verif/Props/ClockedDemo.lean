import Verif.Props.Clocked

/-! # A concrete run on a clock that advances while the code runs (C154) -/

namespace Firefly.Props
open Spec

/-- Execute radio ticks. -/
def runPaced (plat : Platform) : List (Reads × Option Packet) → List Timed → Node →
    Option (List Timed × Node)
  | [], h, s => some (h, s)
  | (r, rx) :: l, h, s =>
    match s.radioTickR plat r rx with
    | .ok s' => runPaced plat l (⟨⟨s, .radioTick r.first rx, s'⟩, r⟩ :: h) s'
    | .error _ => none

theorem runPaced_sound {plat s₀} : ∀ {l h s h' s'}, Paced plat s₀ h s →
    runPaced plat l h s = some (h', s') → Paced plat s₀ h' s'
  | [], _, _, _, _, x, e => by cases e; exact x
  | (r, rx) :: l, h, s, h', s', x, e => by
    simp only [runPaced] at e
    split at e
    · rename_i s1 h1
      exact runPaced_sound (.tick r rx x h1) e
    · cases e

namespace ClockedDemo

/-- Each reading one millisecond after the one before. -/
def ticking (t : U32) : Reads :=
  ⟨t, t + 1, t + 2, t + 3, t + 4, t + 5, t + 6, t + 7, t + 8, t + 9, t + 10⟩

def start (t : U32) : Node :=
  Node.init t (fun n => 7 + n) (.heartbeat, Vector.replicate 58 0) (.heartbeat, Vector.replicate 58 0)

/-- The sender hears nobody: it takes over in the tick at 5100 and sends a heartbeat again at 6117. -/
def sender : List Timed × Node :=
  (runPaced .arduino [(ticking 5007, none), (ticking 5100, none), (ticking 6106, none),
    (ticking 6117, none)] [] (start 0)).getD ([], start 0)

/-- The packets of the sender. -/
def beats : List Packet := sender.2.sent

/-- The receiver hears both heartbeats and then nothing. -/
def receiver : List Timed × Node :=
  (runPaced .host [(ticking 1000050, beats[0]?), (ticking 1001067, beats[1]?),
    (ticking 1006080, none), (ticking 1006091, none)] [] (start 1000000)).getD ([], start 1000000)

theorem sender_run : PacedRun .arduino 0 sender.1 sender.2 := by
  unfold sender
  cases h : runPaced .arduino [(ticking 5007, none), (ticking 5100, none), (ticking 6106, none),
    (ticking 6117, none)] [] (start 0) with
  | none => exact ⟨_, _, _, .nil⟩
  | some x => exact ⟨_, _, _, runPaced_sound .nil h⟩

theorem receiver_run : PacedRun .host 1000000 receiver.1 receiver.2 := by
  unfold receiver
  cases h : runPaced .host [(ticking 1000050, beats[0]?), (ticking 1001067, beats[1]?),
    (ticking 1006080, none), (ticking 1006091, none)] [] (start 1000000) with
  | none => exact ⟨_, _, _, .nil⟩
  | some x => exact ⟨_, _, _, runPaced_sound .nil h⟩

theorem advancing_of {t₀ h l} (e : h.map Timed.reads = l)
    (d : clockOk (l.flatMap (fun r => r.list.reverse) ++ [t₀]) = true) : Advancing t₀ h := by
  subst e
  have := clockOk_sound d
  simp only [List.flatMap_map] at this
  refine ⟨this.1, fun t ht => this.2 t ?_⟩
  simpa using ht

/-- What is seen of the two runs, newest step first. -/
theorem seen :
    sender.1.map (fun x => (summary x.entry, ended x)) =
      [(⟨6117, true, .master, .master, none, [.heartbeat], true⟩, 6127),
       (⟨6106, true, .master, .master, none, [], true⟩, 6116),
       (⟨5100, true, .slave, .master, none, [.heartbeat], true⟩, 5110),
       (⟨5007, true, .slave, .slave, none, [], true⟩, 5017)] ∧
    receiver.1.map (fun x => (summary x.entry, ended x)) =
      [(⟨1006091, true, .slave, .master, none, [.heartbeat], true⟩, 1006101),
       (⟨1006080, true, .slave, .slave, none, [], true⟩, 1006090),
       (⟨1001067, true, .slave, .slave, some .heartbeat, [.heartbeat], true⟩, 1001077),
       (⟨1000050, true, .slave, .slave, some .heartbeat, [.heartbeat], true⟩, 1000060)] := by
  decide +kernel

end ClockedDemo

open ClockedDemo in
/-- The hypotheses of the theorems of C154 are met: the sender, which takes over 5100 ms after power-on,
sends its next heartbeat in the first tick that begins more than 1006 ms later, because the clock advanced by 6 ms before
the timer was set; the receiver shows the time of the sender and takes over more than 5000 ms after the
last heartbeat it heard. -/
theorem paced_demo :
    PacedRun .arduino 0 sender.1 sender.2 ∧ Advancing 0 sender.1 ∧
    ProperUse (sender.1.map Timed.entry) ∧
    PacedRun .host 1000000 receiver.1 receiver.2 ∧ Advancing 1000000 receiver.1 ∧
    ProperUse (receiver.1.map Timed.entry) ∧
    (∀ t, sender.2.getNetworkMillis t = t) ∧
    (∀ d, receiver.2.getNetworkMillis (1001070 + d) = 6120 + d) := by
  obtain ⟨h1, h2⟩ := seen
  have hs : (sender.1.map Timed.entry).map summary = (sender.1.map (fun x =>
      (summary x.entry, ended x))).map Prod.fst := by
    simp
  have hr : (receiver.1.map Timed.entry).map summary = (receiver.1.map (fun x =>
      (summary x.entry, ended x))).map Prod.fst := by
    simp
  rw [h1] at hs
  rw [h2] at hr
  refine ⟨sender_run, advancing_of rfl (by decide +kernel), proper_of_summaries hs (by decide),
    receiver_run, advancing_of rfl (by decide +kernel), proper_of_summaries hr (by decide), ?_, ?_⟩
  · have : sender.2.millisOffset = 0 := by decide +kernel
    intro t; rw [Node.getNetworkMillis, this]; exact BitVec.add_zero t
  · have : receiver.2.millisOffset = 6120 - 1001070 := by decide +kernel
    intro d
    rw [Node.getNetworkMillis, this]
    bv_omega

end Firefly.Props
