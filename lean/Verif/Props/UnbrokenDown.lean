import Verif.Props.Unbroken

/-! # Why the other devices have to be given sound instructions (C181) -/

namespace Firefly.Props
open Spec

namespace DownDemo

/-- A board (device 0) and another device (1), which hear each other. -/
def dev : Fin 2 → Option Board.Env := fun i => if i = 0 then some (Board.Demo.env .node) else none
def nbrs : Fin 2 → List (Fin 2) := fun i => if i = 0 then [1] else [0]

def z : PType × Vector U8 58 := (.heartbeat, Vector.replicate 58 0)
def rand : Rand := fun k => k + 7

def other : Node := Node.init 0 rand z z
/-- Effect 1 with palette 200, as a key pad sends it that follows a colour with 200 parts of green (C125). -/
def order : Packet := Trellis.blank.writeSetEffect 1 60 200

def start : LightNet 2 where
  net := { node := fun i => if i = 0 then (Board.init (Board.Demo.env .node) 0 rand).node else other
           hist := fun i => if i = 0 then LightNet.setupEntries (Board.Demo.env .node) 0 (Node.init 0 rand z z) else []
           air := [] }
  board := fun _ => Board.init (Board.Demo.env .node) 0 rand
  iter := fun _ => []

def after : Node := other.afterSetEffect .arduino 1000 order

theorem start_reach : LightNet.Reach dev nbrs start := by
  refine .boot ⟨fun i e he => ?_, fun i he => ?_, rfl⟩
  · match i with
    | 0 => cases he; exact ⟨0, rand, rfl, rfl, rfl, rfl⟩
  · match i with
    | 1 => exact ⟨rfl, 0, rand, z, z, rfl⟩

def told : HwNet 2 :=
  { node := fun k => if k = 1 then after else start.net.node k
    hist := fun k => if k = 1 then ⟨start.net.node 1, .setEffect 1000 order, after⟩ :: start.net.hist 1 else start.net.hist k
    air := [[0, 10, 2, 1, 60, 200]].map ((1 : Fin 2), ·) ++ start.net.air }

theorem told_reach : LightNet.Reach dev nbrs { start with net := told } := by
  refine .step start_reach (.other (.act 1 (.setEffect 1000 order) nofun
    (fun now p h => by cases h; exact .inl rfl) ?_ ?_) fun k env hk => ?_)
  · exact Trellis.setEffect_ok (by show (0 : U8).toNat < 5; decide) _ _
  · rfl
  · match k with
    | 0 => exact ⟨rfl, rfl⟩

end DownDemo

open DownDemo in
/-- C181: the condition on the other devices is needed.  In an installation of a shipped board and another device, that
device is given a complete instruction that names a palette that does not exist (as key pads do that follow a colour, C125);
the board hears it, and its next iteration is undefined. -/
theorem unsound_call_brings_down : ∃ x : LightNet 2, LightNet.Reach dev nbrs x ∧
    (∀ i env, dev i = some env → ShippedBoard env) ∧
    (∀ e ∈ x.net.hist 1, ∃ now p, e.op = .setEffect now p ∧ p.type = .setEffect ∧ p.len = 3 ∧ p.data[2] = 200) ∧
    ∃ env inp, dev 0 = some env ∧ ReadsAir nbrs x 0 inp ∧ ∀ s', Board.loop env inp (x.board 0) ≠ .ok s' := by
  refine ⟨_, told_reach, fun i env hd => ?_, fun e he => ?_, _, Board.Demo.input 1100 4000 (some [0, 10, 2, 1, 60, 200]) none,
    rfl, fun f hf => ?_, fun s' h => ?_⟩
  · match i with
    | 0 => cases hd; exact ⟨⟨_, Board.Demo.env_shipped .node⟩, by decide, by decide, by decide⟩
  · rcases List.mem_singleton.1 he with rfl
    exact ⟨_, _, rfl, rfl, rfl, rfl⟩
  · simp only [offered, List.mem_cons, List.not_mem_nil, or_false] at hf
    rcases hf with hf | hf
    · cases hf
      exact ⟨1, by decide, by decide⟩
    · cases hf
  · have : (Board.loop (Board.Demo.env .node) (Board.Demo.input 1100 4000 (some [0, 10, 2, 1, 60, 200]) none)
        (Board.init (Board.Demo.env .node) 0 rand)).toOption.isSome = false := by decide +kernel
    have h' : Board.loop (Board.Demo.env .node) (Board.Demo.input 1100 4000 (some [0, 10, 2, 1, 60, 200]) none)
        (Board.init (Board.Demo.env .node) 0 rand) = .ok s' := h
    rw [h'] at this
    cases this

end Firefly.Props
