import Verif.Model.Basic

/-! # Radio packets (lib/radio/Radio.hpp, lib/radio/Radio.cpp) -/

namespace Firefly

/-- `enum PacketType`, lib/radio/Radio.hpp:7-23, values 0..3.  `other n` stands for a byte
`n ≥ 4` that the radio driver casts to the enum (src/arduino/RadioHeadRadio.cpp:29); no
`switch` in the code has a case for it. -/
inductive PType where
  | heartbeat
  | claimMaster
  | setEffect
  | setControl
  | other (n : U8) (h : 4 ≤ n)
  deriving DecidableEq, Repr

/-- `PACKET_DATA_LENGTH`, lib/radio/Radio.hpp:25. -/
def packetDataLength : Nat := 58

/-- An RGB colour (FastLED `CRGB`). Not in /repo; used e.g. in lib/radio/Radio.hpp. -/
structure CRGB where
  r : U8
  g : U8
  b : U8
  deriving DecidableEq, Repr

/-- `struct RadioPacket`, lib/radio/Radio.hpp:27-71. -/
structure Packet where
  id : U16
  type : PType
  len : U8
  data : Vector U8 58
  deriving DecidableEq, Repr

namespace Packet

/-- `RadioPacket::writeHeartbeat`, lib/radio/Radio.cpp:7-14. -/
def writeHeartbeat (p : Packet) (time : U32) : Packet :=
  { p with
    type := .heartbeat
    len := 4
    data := (((p.data.set 0 ((time >>> 24).setWidth 8)).set 1 ((time >>> 16).setWidth 8)).set 2
      ((time >>> 8).setWidth 8)).set 3 (time.setWidth 8) }

/-- `RadioPacket::readTimeFromHeartbeat`, lib/radio/Radio.cpp:16-26.  `data[0] << 24` is an
`int` shift; the code relies on the two's complement result (well defined since C++14 DR
1457), which is what the model computes. -/
def readTimeFromHeartbeat (plat : Platform) (p : Packet) : Except Fault U32 := do
  hostAssert plat (p.type = .heartbeat)
  hostAssert plat (p.len = 4)
  return (p.data[3].setWidth 32) ||| (p.data[2].setWidth 32 <<< 8) |||
    (p.data[1].setWidth 32 <<< 16) ||| (p.data[0].setWidth 32 <<< 24)

/-- `RadioPacket::writeSetEffect`, lib/radio/Radio.cpp:28-35. -/
def writeSetEffect (p : Packet) (effect delay palette : U8) : Packet :=
  { p with
    type := .setEffect
    len := 3
    data := ((p.data.set 0 effect).set 1 delay).set 2 palette }

/-- `RadioPacket::readEffectIndexFromSetEffect`, lib/radio/Radio.cpp:37-43. -/
def readEffectIndexFromSetEffect (plat : Platform) (p : Packet) : Except Fault U8 := do
  hostAssert plat (p.type = .setEffect)
  hostAssert plat (p.len = 3)
  return p.data[0]

/-- `RadioPacket::readDelayFromSetEffect`, lib/radio/Radio.cpp:45-51. -/
def readDelayFromSetEffect (plat : Platform) (p : Packet) : Except Fault U8 := do
  hostAssert plat (p.type = .setEffect)
  hostAssert plat (p.len = 3)
  return p.data[1]

/-- `RadioPacket::readPaletteIndexFromSetEffect`, lib/radio/Radio.cpp:53-59. -/
def readPaletteIndexFromSetEffect (plat : Platform) (p : Packet) : Except Fault U8 := do
  hostAssert plat (p.type = .setEffect)
  hostAssert plat (p.len = 3)
  return p.data[2]

/-- `RadioPacket::writeControl`, lib/radio/Radio.cpp:61-68. -/
def writeControl (p : Packet) (delay : U8) (rgb : CRGB) : Packet :=
  { p with
    type := .setControl
    len := 4
    data := (((p.data.set 0 delay).set 1 rgb.r).set 2 rgb.g).set 3 rgb.b }

/-- `RadioPacket::readDelayFromSetControl`, lib/radio/Radio.cpp:70-76. -/
def readDelayFromSetControl (plat : Platform) (p : Packet) : Except Fault U8 := do
  hostAssert plat (p.type = .setControl)
  hostAssert plat (p.len = 4)
  return p.data[0]

/-- `RadioPacket::readRgbFromSetControl`, lib/radio/Radio.cpp:78-84. -/
def readRgbFromSetControl (plat : Platform) (p : Packet) : Except Fault CRGB := do
  hostAssert plat (p.type = .setControl)
  hostAssert plat (p.len = 4)
  return ⟨p.data[1], p.data[2], p.data[3]⟩

/-- `operator==(const RadioPacket&, const RadioPacket&)`, lib/radio/Radio.hpp:73-83.
`memcmp(a, b, n) == 0` compares the first `n` bytes. -/
def eqOp (l r : Packet) : Bool :=
  if packetDataLength < l.len.toNat ∨ packetDataLength < r.len.toNat then false
  else
    l.id == r.id && l.type == r.type && l.len == r.len &&
      (l.data.toList.take l.len.toNat == r.data.toList.take l.len.toNat)

end Packet

end Firefly
