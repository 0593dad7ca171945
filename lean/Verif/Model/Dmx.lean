import Verif.Model.RadioHead

/-! # DMX gateway (src/devices/dmx/dmx.cpp)

The DMX library is not in the repository; the three channel values it delivers in an iteration
are inputs. -/

namespace Firefly
namespace Dmx

/-- `RESERVATION_SECONDS`, src/devices/dmx/dmx.cpp:8. -/
def kReservationSeconds : U8 := 5
/-- `UPDATE_TIMEOUT_SECONDS`, src/devices/dmx/dmx.cpp:9. -/
def kUpdateTimeoutSeconds : U32 := 1

/-- The global variables of the program, src/devices/dmx/dmx.cpp:41-47. -/
structure State where
  packet : Packet
  packetId : U16
  lastSent : U32
  last : CRGB

/-- The globals at start-up (zero-initialised; the type and payload of `packet` are indeterminate,
hence `junk`). src/devices/dmx/dmx.cpp:41-47. -/
def init (junk : PType × Vector U8 58) : State :=
  { packet := { id := 0, type := junk.1, len := 0, data := junk.2 }
    packetId := 0, lastSent := 0, last := CRGB.mk 0 0 0 }

/-- What one iteration reads: the colour on channels 3 to 5, and `millis()`.
src/devices/dmx/dmx.cpp:50-56. -/
structure Input where
  colour : CRGB
  time : U32

/-- `loop`, src/devices/dmx/dmx.cpp:49-77: the new state and the packet handed to the radio, if
any.  The sum `last_sent + UPDATE_TIMEOUT_SECONDS * 1000` is a `uint32_t` and wraps. -/
def loop (s : State) (i : Input) : State × Option Packet :=
  if i.colour.r ≠ s.last.r ∨ i.colour.g ≠ s.last.g ∨ i.colour.b ≠ s.last.b ∨
      s.lastSent + kUpdateTimeoutSeconds * 1000 < i.time then
    let p := s.packet.writeControl kReservationSeconds i.colour
    let p := { p with id := s.packetId }
    (⟨p, s.packetId + 1, i.time, i.colour⟩, some p)
  else (s, none)

/-- The state before iteration `n`. Repeated calls of `loop`, src/devices/dmx/dmx.cpp:49. -/
def state (junk : PType × Vector U8 58) (inp : Nat → Input) : Nat → State
  | 0 => init junk
  | n + 1 => (loop (state junk inp n) (inp n)).1

/-- What iteration `n` transmits. src/devices/dmx/dmx.cpp:58-74. -/
def sent (junk : PType × Vector U8 58) (inp : Nat → Input) (n : Nat) : Option Packet :=
  (loop (state junk inp n) (inp n)).2

end Dmx
end Firefly
