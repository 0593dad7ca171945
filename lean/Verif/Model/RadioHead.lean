import Verif.Model.Packet

/-! # Hardware radio framing (src/arduino/RadioHeadRadio.{hpp,cpp})

The RadioHead driver itself (`RH_RF69`) is not in the repository.  A transmission is the list
of bytes handed to `radio.send`; a reception is the list of bytes that `radio.recv` stores in
the buffer (at most 64, the capacity passed in). -/

namespace Firefly
namespace Hw

/-- `kMaxFifoSizePacketSize`, src/arduino/RadioHeadRadio.hpp:8. -/
def kMaxFifoSizePacketSize : Nat := 64
/-- `kRadioOverhead`, src/arduino/RadioHeadRadio.hpp:9. -/
def kRadioOverhead : Nat := 3
/-- `kMaxPacketSize`, src/arduino/RadioHeadRadio.hpp:10. -/
def kMaxPacketSize : Nat := kMaxFifoSizePacketSize - kRadioOverhead
/-- `kFrontPacketPadding`, src/arduino/RadioHeadRadio.hpp:11. -/
def kFrontPacketPadding : Nat := 3

/-- The cast `(PacketType)buffer[2]`, src/arduino/RadioHeadRadio.cpp:29. -/
def typeOfByte (b : U8) : PType :=
  if b = 0 then .heartbeat
  else if b = 1 then .claimMaster
  else if b = 2 then .setEffect
  else if b = 3 then .setControl
  else if h : 4 ≤ b then .other b h
  else .heartbeat

/-- The conversion `buffer[2] = packet.type`, src/arduino/RadioHeadRadio.cpp:51. -/
def byteOfType : PType → U8
  | .heartbeat => 0
  | .claimMaster => 1
  | .setEffect => 2
  | .setControl => 3
  | .other n _ => n

/-- `RadioHeadRadio::sendPacket`, src/arduino/RadioHeadRadio.cpp:46-64: the bytes handed to
`radio.send`.  The `memcpy` of `dataLength` bytes is undefined if it exceeds the 58-byte
payload it reads or the 61-byte buffer it writes (behind the 3-byte header).  The length
argument of `radio.send` is a `uint8_t`. -/
def sendPacket (p : Packet) : Except Fault (List U8) :=
  if 58 < p.len.toNat ∨ kMaxPacketSize < kFrontPacketPadding + p.len.toNat then
    .error .outOfBounds
  else
    .ok ([(p.id >>> 8).setWidth 8, (p.id &&& 0x00ff).setWidth 8, byteOfType p.type] ++
      p.data.toList.take p.len.toNat)

/-- The copy loop of `readPacket`, src/arduino/RadioHeadRadio.cpp:35-37: payload byte `i` is
overwritten for each received byte `3 + i`. -/
def copyPayload (old : Vector U8 58) (bytes : List U8) : Vector U8 58 :=
  Vector.ofFn fun i => (bytes[i.val]?).getD old[i]

/-- `RadioHeadRadio::readPacket`, src/arduino/RadioHeadRadio.cpp:18-44.  `frame` is what the
driver delivers (`none`: nothing available), `p` the caller's packet passed by reference.
`none` means the function returned false.  Note that `p.len` is never assigned.  Writing a
payload byte at index 58 or beyond is undefined, as is a frame larger than the buffer. -/
def readPacket (frame : Option (List U8)) (p : Packet) : Except Fault (Option Packet) :=
  match frame with
  | none => .ok none
  | some bytes =>
    if kMaxFifoSizePacketSize < bytes.length then .error .outOfBounds
    else
      match bytes with
      | b0 :: b1 :: b2 :: b3 :: rest =>
        if 58 < (b3 :: rest).length then .error .outOfBounds
        else
          .ok (some
            { p with
              id := (b0.setWidth 16 <<< 8) + b1.setWidth 16
              type := typeOfByte b2
              data := copyPayload p.data (b3 :: rest) })
      | _ => .ok none

end Hw
end Firefly
