import Verif.Model.HwNet

/-! # A network of LED boards and other devices

Not from /repo: the universe of executions that the properties of a whole installation (C115,
C116) quantify over.  Some devices are LED boards running the program of
src/devices/node/node.cpp or src/devices/fancy-node/fancy-node.cc (`Board.loop`); the others (such
as controllers, C92) are devices on the same radio as in `HwNet`. -/

namespace Firefly

/-- The steps of the state machine in one call of `Tick` (newest first), a history variable:
src/generic/RadioStateMachine.cpp:23-36, cf. `Board.tick`. -/
def Board.tickEntries (first second : Board.Listen) (s : Node) : Except Fault (List Entry) := do
  let rx ← first.packet
  let s₁ ← s.radioTick .arduino first.now rx
  if s₁.tickRun then
    let rx₂ ← second.packet
    let s₂ ← s₁.radioTick .arduino second.now rx₂
    return [⟨s₂, .endTick second.now, { s₂ with tickRun := true }⟩,
      ⟨s₁, .radioTick second.now rx₂, s₂⟩, ⟨s, .radioTick first.now rx, s₁⟩]
  else return [⟨s₁, .endTick first.now, { s₁ with tickRun := true }⟩,
      ⟨s, .radioTick first.now rx, s₁⟩]

/-- The steps of the state machine in one iteration of `loop` of a board (newest first): none on
a fancy node whose battery is low (src/devices/fancy-node/fancy-node.cc:189-214). -/
def Board.entries (env : Board.Env) (inp : Board.Input) (s : Board.State) :
    Except Fault (List Entry) :=
  if env.program = .fancyNode ∧ (Battery.step .fancyNode s.low inp.battery).active = false then
    .ok []
  else Board.tickEntries inp.first inp.second s.node

/-- The state of the installation: the radio devices and the frames on the air, the state of the
boards (irrelevant for the other devices) and their iterations so far (newest first). Not from
/repo: several devices running src/devices/node/node.cpp or src/devices/fancy-node/fancy-node.cc.
-/
structure LightNet (n : Nat) where
  net : HwNet n
  board : Fin n → Board.State
  iter : Fin n → List (Board.State × Board.Input × Board.State)

namespace LightNet

/-- One step: a board performs an iteration of its loop, in which the frames it reads were put on
the air by devices whose neighbour it is; or another device takes a step.  `dev i` is `some env`
if device `i` is a board and `none` otherwise. The iteration is src/devices/node/node.cpp:145-162
or src/devices/fancy-node/fancy-node.cc:189; the interleaving is not from /repo. -/
inductive Step {n} (dev : Fin n → Option Board.Env) (nbrs : Fin n → List (Fin n))
    (x : LightNet n) : LightNet n → Prop
  | board (i : Fin n) (env : Board.Env) (inp : Board.Input) {s' : Board.State} {es : List Entry}
      (hdev : dev i = some env)
      (hread : ∀ l ∈ [inp.first, inp.second], ∀ f, l.frame = some f →
        ∃ j, i ∈ nbrs j ∧ (j, f) ∈ x.net.air)
      (hloop : Board.loop env inp (x.board i) = .ok s')
      (hes : Board.entries env inp (x.board i) = .ok es) :
      Step dev nbrs x
        { net :=
            { node := fun k => if k = i then s'.node else x.net.node k
              hist := fun k => if k = i then es ++ x.net.hist i else x.net.hist k
              air := (s'.aired.drop (x.board i).aired.length).map (i, ·) ++ x.net.air }
          board := fun k => if k = i then s' else x.board k
          iter := fun k => if k = i then (x.board i, inp, s') :: x.iter i else x.iter k }
  | other {net' : HwNet n} (hstep : HwNet.Step nbrs x.net net')
      (hsame : ∀ k env, dev k = some env →
        net'.node k = x.net.node k ∧ net'.hist k = x.net.hist k) :
      Step dev nbrs x { x with net := net' }

/-- The two steps of the state machine in the static initialisation of a board
(lib/led_manager/LedManager.cpp:37-38, cf. `Board.init`), newest first. -/
def setupEntries (env : Board.Env) (t₀ : U32) (s : Node) : List Entry :=
  let s₁ := s.setNumEffects env.registry.getNumEffects
  let s₂ := s₁.setNumPalettes (BitVec.ofNat 8 Firefly.palettes.length)
  [⟨s₁, .setNumPalettes t₀ (BitVec.ofNat 8 Firefly.palettes.length), s₂⟩,
    ⟨s, .setNumEffects t₀ env.registry.getNumEffects, s₁⟩]

/-- All devices freshly powered up. Globals and `setup`, src/devices/node/node.cpp:21-98. -/
structure Boot {n} (dev : Fin n → Option Board.Env) (x : LightNet n) : Prop where
  board : ∀ i env, dev i = some env → ∃ t₀ rand, x.board i = Board.init env t₀ rand ∧
    x.net.node i = (x.board i).node ∧ x.iter i = [] ∧
    x.net.hist i = setupEntries env t₀
      (Node.init t₀ rand (.heartbeat, Vector.replicate 58 0) (.heartbeat, Vector.replicate 58 0))
  other : ∀ i, dev i = none → x.net.hist i = [] ∧
    ∃ t₀ rand junk junk', x.net.node i = Node.init t₀ rand junk junk'
  air : x.net.air = []

/-- The installations that can arise. Not from /repo: the executions
of any number of devices (src/devices/node/node.cpp:145). -/
inductive Reach {n} (dev : Fin n → Option Board.Env) (nbrs : Fin n → List (Fin n)) :
    LightNet n → Prop
  | boot {x} : Boot dev x → Reach dev nbrs x
  | step {x x'} : Reach dev nbrs x → Step dev nbrs x x' → Reach dev nbrs x'

end LightNet
end Firefly
