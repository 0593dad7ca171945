import Verif.Model.Packet

/-! # Mesh layer (src/generic/NetworkManager.{hpp,cpp}) -/

namespace Firefly

/-- `NetworkManager::kRecentIdsCacheSize`, src/generic/NetworkManager.hpp:25. -/
def kRecentIdsCacheSize : U8 := 5

/-- The data members of `NetworkManager`, src/generic/NetworkManager.hpp:37-38. -/
structure NM where
  cache : Vector U16 5
  idx : U8
  deriving DecidableEq, Repr

namespace NM

/-- `NetworkManager::NetworkManager`, src/generic/NetworkManager.cpp:5-8. -/
def init : NM := { cache := Vector.replicate 5 0, idx := 0 }

/-- `NetworkManager::AddToRecentIdsCache`, src/generic/NetworkManager.cpp:36-39.  The array
store is undefined if the index is not below the array size. -/
def addToRecentIdsCache (m : NM) (id : U16) : Except Fault NM :=
  if h : m.idx.toNat < 5 then
    .ok { cache := m.cache.set m.idx.toNat id, idx := (m.idx + 1) % kRecentIdsCacheSize }
  else .error .outOfBounds

/-- `NetworkManager::receive`, src/generic/NetworkManager.cpp:10-26.

`rx` is what `radio_->readPacket` produced (`none`: it returned false).  The result is the
packet delivered to the caller (`none`: `receive` returned false), the list of packets handed
to `radio_->sendPacket`, and the new state.  The search loop runs over the whole array. -/
def receive (m : NM) (rx : Option Packet) : Except Fault (Option Packet × List Packet × NM) :=
  match rx with
  | none => .ok (none, [], m)
  | some p =>
    if p.id ∈ m.cache.toList then .ok (none, [], m)
    else do
      let m' ← m.addToRecentIdsCache p.id
      return (some p, [p], m')

/-- `NetworkManager::send`, src/generic/NetworkManager.cpp:28-34.  Returns the packet with its
fresh id (the argument is a reference), the packets handed to the radio, the new state and
the rest of the random supply. -/
def send (plat : Platform) (m : NM) (p : Packet) (r : Rand) :
    Except Fault (Packet × List Packet × NM × Rand) := do
  let (id, r') ← randomRange plat 2 0xFFFF r
  let p' := { p with id := id }
  let m' ← m.addToRecentIdsCache id
  return (p', [p'], m', r')

end NM

end Firefly
