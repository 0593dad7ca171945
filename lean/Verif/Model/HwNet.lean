import Verif.Model.Board

/-! # A network of devices that communicate by radio frames

Not from /repo: the universe of executions that the properties of a real network (C97–C99)
quantify over.  Every device runs the state machine of src/generic/RadioStateMachine.cpp on the
radio of src/arduino/RadioHeadRadio.cpp (Arduino build).  What it transmits goes on the air as a
frame; a direct neighbour may read a frame from the air at any later time, any number of times, or
never (so losses, delays, reordering and repetitions are included; the driver discards corrupted
frames by their checksum). -/

namespace Firefly

/-- The state of the network: the devices, their histories (newest first), and every frame ever
put on the air with its sender. Not from /repo: several devices running
src/generic/RadioStateMachine.cpp on src/arduino/RadioHeadRadio.cpp. -/
structure HwNet (n : Nat) where
  node : Fin n → Node
  hist : Fin n → List Entry
  air : List (Fin n × List U8)

namespace HwNet

/-- Device `i` can get `rx` from its radio when listening at `now`: nothing, or a frame on the air
from a device whose neighbour `i` is. Not from /repo: the medium behind
src/arduino/RadioHeadRadio.cpp. -/
def CanRead {n} (nbrs : Fin n → List (Fin n)) (net : HwNet n) (i : Fin n) (now : U32)
    (rx : Option Packet) : Prop :=
  ∃ l : Board.Listen, l.now = now ∧ l.packet = .ok rx ∧
    ∀ f, l.frame = some f → ∃ j, i ∈ nbrs j ∧ (j, f) ∈ net.air

/-- One device takes one step (a radio tick, a local `SetEffect` with an instruction, or one of
the configuration calls). The steps are the calls of src/devices/node/node.cpp:145-147; their
interleaving is not from /repo. -/
inductive Step {n} (nbrs : Fin n → List (Fin n)) (net : HwNet n) : HwNet n → Prop
  | act (i : Fin n) (op : Op) {s' : Node} {fs : List (List U8)}
      (hrx : ∀ now rx, op = .radioTick now rx → CanRead nbrs net i now rx)
      (hproper : ∀ now p, op = .setEffect now p → p.type = .setEffect ∨ p.type = .setControl)
      (hst : op.step .arduino (net.node i) = .ok s')
      (hfs : Board.frames (net.node i) s' = .ok fs) :
      Step nbrs net
        { node := fun k => if k = i then s' else net.node k
          hist := fun k => if k = i then ⟨net.node i, op, s'⟩ :: net.hist i else net.hist k
          air := fs.map (i, ·) ++ net.air }

/-- All devices freshly powered up, each at its own local time, with its own random numbers and
memory contents. The constructors, src/generic/RadioStateMachine.cpp:10-17. -/
structure Boot {n} (net : HwNet n) : Prop where
  node : ∀ i, ∃ t₀ rand junk junk', net.node i = Node.init t₀ rand junk junk'
  hist : ∀ i, net.hist i = []
  air : net.air = []

/-- The networks that can arise. Not from /repo: the executions
of any number of devices (src/devices/node/node.cpp:145). -/
inductive Reach {n} (nbrs : Fin n → List (Fin n)) : HwNet n → Prop
  | boot {net} : Boot net → Reach nbrs net
  | step {net net'} : Reach nbrs net → Step nbrs net net' → Reach nbrs net'

end HwNet
end Firefly
