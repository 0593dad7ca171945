import Verif.Model.Device

/-! # The stored device description (src/devices/node/node.cpp, src/devices/fancy-node/fancy-node.cc)

Both boards can keep a `DeviceDescription` object in non-volatile memory, as the raw bytes of
the object.  The storage libraries are not in the repository.  Their documented behaviour is
modelled as: a row is erased at once (all bytes become 0xFF) and then programmed byte by byte in
ascending order; power may fail between any two of these operations. -/

namespace Firefly
namespace Flash

/-- `DeviceDescription::kMaxSize`, lib/device/DeviceDescription.hpp:36. -/
def kMaxSize : Nat := 128
/-- `DeviceDescription::kCheckValue`, lib/device/DeviceDescription.hpp:32. -/
def kCheckValue : U32 := 0x12345678

/-- A little-endian `uint32_t` in memory. Layout of the members in
lib/device/DeviceDescription.hpp:10-28 on the target. -/
def le32 (x : U32) : List U8 :=
  [x.setWidth 8, (x >>> 8).setWidth 8, (x >>> 16).setWidth 8, (x >>> 24).setWidth 8]

/-- The `uint32_t` at a given offset of a byte sequence (missing bytes read as 0). As
`device->check_value` is read at src/devices/node/node.cpp:42. -/
def get32 (l : List U8) (off : Nat) : U32 :=
  (l.getD off 0).setWidth 32 ||| ((l.getD (off + 1) 0).setWidth 32 <<< 8) |||
    ((l.getD (off + 2) 0).setWidth 32 <<< 16) ||| ((l.getD (off + 3) 0).setWidth 32 <<< 24)

/-- The bytes of a `DeviceDescription` object, lib/device/DeviceDescription.hpp:15-37, on the
32-bit ARM boards: `milliamps_supported`, the three pointers of the `std::vector` of strips
(begin, end, end of capacity), `check_value`. -/
structure Object where
  milliamps : U32
  first : U32
  last : U32
  cap : U32
  check : U32
  deriving DecidableEq, Repr

/-- The memory image of an object. src/devices/node/node.cpp:54. -/
def Object.bytes (o : Object) : List U8 :=
  le32 o.milliamps ++ le32 o.first ++ le32 o.last ++ le32 o.cap ++ le32 o.check

/-- `sizeof(Devices::current)`. src/devices/node/node.cpp:55. -/
def objectSize : Nat := 20

/-- Reinterpreting bytes as an object: `(DeviceDescription *)malloc(kMaxSize)` filled from
storage, src/devices/node/node.cpp:35-41, src/devices/fancy-node/fancy-node.cc:62-72. -/
def Object.ofBytes (l : List U8) : Object :=
  ⟨get32 l 0, get32 l 4, get32 l 8, get32 l 12, get32 l 16⟩

/-- The object the board uses: `current` is `Devices::current` of the running firmware.
src/devices/node/node.cpp:34-48. -/
inductive Used where
  | fallback
  | stored (o : Object)
  deriving DecidableEq, Repr

/-- `ReadDeviceFromFlash`, src/devices/node/node.cpp:34-48 and
src/devices/fancy-node/fancy-node.cc:61-80. -/
def readDevice (mallocOk : Bool) (storage : List U8) : Used :=
  if mallocOk then
    let o := Object.ofBytes storage
    if o.check ≠ kCheckValue then .fallback else .stored o
  else .fallback

/-- Operations on the storage medium. `device_storage.erase()` and `write()`,
src/devices/node/node.cpp:67-68 (the flash library is not in /repo). -/
inductive Op where
  | erase
  | program (i : Nat) (b : U8)
  deriving DecidableEq, Repr

/-- The medium after an operation. src/devices/node/node.cpp:67-68. -/
def Op.apply (l : List U8) : Op → List U8
  | .erase => List.replicate kMaxSize 0xFF
  | .program i b => l.set i b

/-- Programming a byte sequence in ascending order. src/devices/node/node.cpp:68. -/
def programAll (l : List U8) : List Op := l.zipIdx.map fun x => .program x.2 x.1

/-- The boards. src/devices/node/node.cpp:50-70 and src/devices/fancy-node/fancy-node.cc:82-102.
-/
inductive Board where
  /-- SAMD `FlashClass` -/
  | node
  /-- STM32 `EEPROM` emulation: `write` changes a copy in memory, `commit` writes it back -/
  | fancyNode
  deriving DecidableEq, Repr

/-- The operations performed by `WriteDeviceToFlash`, src/devices/node/node.cpp:50-70 and
src/devices/fancy-node/fancy-node.cc:82-102.  `o` is `Devices::current`; on the node the library
copies `kMaxSize` bytes starting at the object, so the bytes that follow it in memory
(`trailing`) are stored too. -/
def writeOps (b : Board) (o : Object) (trailing : List U8) (storage : List U8) : List Op :=
  if storage.take objectSize = o.bytes then []
  else
    match b with
    | .node => .erase :: programAll ((o.bytes ++ trailing).take kMaxSize)
    | .fancyNode => .erase :: programAll (o.bytes ++ storage.drop objectSize)

/-- The storage when power fails after `k` operations (or at the end, if there are no more). Not
from /repo: a power failure during src/devices/node/node.cpp:67-68. -/
def afterOps (storage : List U8) (ops : List Op) (k : Nat) : List U8 :=
  (ops.take k).foldl Op.apply storage

/-- The strips of an object, as the running program sees them: `led_count` and `flags` bytes at
consecutive addresses from `begin` up to `end`. lib/device/DeviceDescription.hpp:25. -/
def Object.strips (heap : U32 → U8) (o : Object) : List Strip :=
  (List.range ((o.last - o.first).toNat / 2)).map fun i =>
    ⟨heap (o.first + BitVec.ofNat 32 (2 * i)), heap (o.first + BitVec.ofNat 32 (2 * i + 1))⟩

/-- The device description the board runs with. src/devices/node/node.cpp:39-47. -/
def Used.device (current : Device) (heap : U32 → U8) : Used → Device
  | .fallback => current
  | .stored o => ⟨o.milliamps, o.strips heap⟩

end Flash
end Firefly
