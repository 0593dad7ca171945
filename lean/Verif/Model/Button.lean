import Verif.Model.RadioHead

/-! # The one-button remote (src/devices/remote/remote.ino)

The sketch is not among the environments enabled in platformio.ini (line 136) and was written for
an earlier version of the libraries: it gives `writeSetEffect` two arguments where the present
version takes three (lib/radio/Radio.hpp:55-56).  The model leaves the third, the palette,
arbitrary.  Serial output and the blinking after a failed start are not modelled. -/

namespace Firefly
namespace Button

/-- The global `packet`, src/devices/remote/remote.ino:7, and (a history variable) the frames handed
to the radio driver, oldest first. -/
structure State where
  packet : Packet
  aired : List (List U8)

/-- `loop`, src/devices/remote/remote.ino:31-49; `pressed` is `!digitalRead(kButton0)`. -/
def loop (palette : U8) (s : State) (pressed : Bool) : Except Fault State := do
  if pressed then
    let p := s.packet.writeSetEffect 2 5 palette
    let f ← Hw.sendPacket p
    return ⟨p, s.aired ++ [f]⟩
  else return s

/-- The state after `setup`: the global packet is zero-initialised,
src/devices/remote/remote.ino:7,9-24. -/
def init : State := ⟨⟨0, .heartbeat, 0, Vector.replicate 58 0⟩, []⟩

/-- The program with the button read as given, one value for each call of `loop`
(src/devices/remote/remote.ino:31). -/
def run (palette : U8) (presses : List Bool) : Except Fault State :=
  presses.foldlM (loop palette) init

end Button
end Firefly
