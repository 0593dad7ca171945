import Verif.Model.LedManager

/-!
# Specification vocabulary for effects
-/

namespace Firefly.Spec
open Firefly

/-- The packet is a well-formed effect instruction naming one of the 22 palettes.  (The Arduino
build reads the palette index whatever the type and length of the packet.) -/
def NamesPalette (plat : Platform) (pkt : Packet) : Prop :=
  (plat = .host → pkt.type = .setEffect ∧ pkt.len = 3) ∧ pkt.data[2].toNat < 22

/-- Two packets carry the same instruction: same type, same length, same first four bytes
(an instruction uses no more). -/
def SameInstruction (p q : Packet) : Prop :=
  p.type = q.type ∧ p.len = q.len ∧ p.data[0] = q.data[0] ∧ p.data[1] = q.data[1] ∧
    p.data[2] = q.data[2] ∧ p.data[3] = q.data[3]

/-- The effects with a random phase of their own, which differs from device to device. -/
def HasOwnPhase : Effect → Prop
  | .fire _ | .firefly _ | .rorschach _ => True
  | _ => False

/-- The three phases of a stop light. -/
inductive Light where
  | red
  | amber
  | green
  deriving DecidableEq, Repr

/-- The phase at a time in ms: units of 2048 ms, in cycles of eight: amber for one unit, red
for three, green for four. -/
def lightAt (ms : Nat) : Light :=
  let unit := ms / 2048 % 8
  if unit = 0 then .amber else if unit < 4 then .red else .green

/-- The colour of a lamp that is on. -/
def Light.on : Light → CHSV
  | .red => ⟨0, 255, 255⟩
  | .amber => ⟨32, 255, 255⟩
  | .green => ⟨102, 255, 255⟩

/-- The colour of a lamp that is off: the same hue, dimmed. -/
def Light.dimmed (l : Light) : CHSV := { l.on with v := 32 }

/-- The lamp an LED belongs to, by its distance from the middle of the strip in eighths of the
strip (none within the middle quarter and on the boundaries). -/
def lampOf (count led : Nat) : Option Light :=
  let eighths := ((count / 2 : Nat) - (led : Int)).natAbs * 8
  if eighths ≤ count then none
  else if eighths < 2 * count then some .red
  else if eighths = 2 * count then none
  else if eighths < 3 * count then some .amber
  else if eighths = 3 * count then none
  else some .green

/-- The coordinate along a strip that moving patterns use: the LED index, or on a mirrored strip
the distance from the nearer end. -/
def coordinate (strip : Strip) (led : Nat) : Nat :=
  if strip.flagEnabled .mirrored then min led (strip.count.toNat - 1 - led) else led

/-- The number of coordinates. -/
def coordinates (strip : Strip) : Nat :=
  if strip.flagEnabled .mirrored then (strip.count.toNat + 1) / 2 else strip.count.toNat

/-- The largest value an effect may use on a strip without the Bright flag; `colours` is the
size of the palette. -/
def valueLimit (e : Effect) (colours : Nat) (tiny : Bool) : Nat :=
  match e with
  | .colorCycle => if colours < 2 then 170 else 127
  | .rainbow => if 2 ≤ colours then 128 else if tiny then 255 else 170
  | .displayColorPalette | .simpleBlink _ => 127
  | .rorschach _ => if colours < 2 then 255 else 127
  | .contrastBumps => 223
  | .firefly _ => 127
  | .fire _ => 192
  | _ => 255

/-- The six colours of the pride flag. -/
def prideFlag : Vector CHSV 6 := #v[⟨0, 255, 255⟩, ⟨24, 255, 252⟩, ⟨38, 255, 255⟩,
  ⟨83, 237, 160⟩, ⟨154, 247, 175⟩, ⟨206, 201, 219⟩]

/-- The colour at a position of the moving flag of six stripes, each `8 * count` wide: the
stripe's colour, after a fade of width `fade` from another one: for the second to the sixth
stripe the previous one, for the first stripe the fourth. -/
def prideColour (F : FastLED) (count fade pos : Nat) : CHSV :=
  let stripe := pos / (8 * count)
  let into := pos % (8 * count)
  let colour := prideFlag[stripe % 6]
  if into < fade then
    F.blend (if stripe = 0 then prideFlag[3] else prideFlag[(stripe - 1) % 6]) colour
      (BitVec.ofNat 8 (into * 255 / fade))
  else colour

/-- The effects that are symmetric on a mirrored strip.  (The fire on circular strips is made
asymmetric on purpose; the police lights have a left and a right side on tiny strips and on
the controller.) -/
def Mirrors (strip : Strip) : Effect → Prop
  | .contrastBumps | .rainbowBumps | .spark | .swingingLights => True
  | .fire _ => strip.flagEnabled .circular = false
  | .police => strip.flagEnabled .tiny = false ∧ strip.flagEnabled .controller = false
  | .colorCycle | .control | .dark => True
  | _ => False

end Firefly.Spec
