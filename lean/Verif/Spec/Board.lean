import Verif.Model.Board
import Verif.Spec.Instruction

/-! # Specification vocabulary for the LED boards and the radio frames they exchange -/

namespace Firefly.Spec

/-- A radio frame within the size the receive buffer has room for (61 bytes) that, if it is a
set-effect frame (type byte 2, at least one payload byte), contains a palette byte (payload byte
2, so byte 5) naming one of the 22 palettes. -/
def Harmless (f : List U8) : Prop :=
  f.length ≤ 61 ∧ (f[2]? = some 2 → 4 ≤ f.length → ∃ b, f[5]? = some b ∧ b.toNat < 22)

/-- What the radio driver offered during an iteration of the board's loop. -/
def offered (inp : Board.Input) : List (Option (List U8)) := [inp.first.frame, inp.second.frame]

/-- The packet was received as a frame: its id, type and payload are those of the frame.  What
lies behind the payload of the frame is arbitrary, and the length field is 0. -/
structure Decodes (f : List U8) (p : Packet) : Prop where
  payload : 4 ≤ f.length
  id : ∃ hi lo, f[0]? = some hi ∧ f[1]? = some lo ∧ p.id.toNat = hi.toNat * 256 + lo.toNat
  type : f[2]? = some (Hw.byteOfType p.type)
  data : ∀ i (hi : i < 58), i + 3 < f.length → f[i + 3]? = some p.data[i]
  len : p.len = 0

/-- The iteration runs the radio and the LEDs: always on the node, on the fancy node unless the
battery is low (C76). -/
def BoardAwake (env : Board.Env) (s : Board.State) (inp : Board.Input) : Prop :=
  env.program = .fancyNode → (Battery.step .fancyNode s.low inp.battery).active = true

end Firefly.Spec
