import Verif.Model.NetworkManager

/-! # Histories of one mesh layer, and a mesh of many

The functions `NM.send`/`NM.receive` model the code; this file only says in which orders they
can be called (`MeshRun`) and how several of them are connected by a radio medium (`Net`).
The medium is not code of the repository: it is the environment. -/

namespace Firefly

/-- A call into one `NetworkManager`. src/generic/NetworkManager.cpp: `send` and `receive`. -/
inductive MeshOp where
  | send (p : Packet)
  | receive (rx : Option Packet)

/-- One call together with what can be observed: the packet delivered to the caller (if any) and
the packets handed to the radio. src/generic/NetworkManager.cpp: `send` and `receive`. -/
structure MeshEntry where
  op : MeshOp
  delivered : Option Packet
  transmitted : List Packet

/-- `MeshRun plat h m`: a freshly constructed `NetworkManager` can go through the history `h`
(newest entry first) and end in state `m`.  The random supply of each `send` is arbitrary. Not
from /repo: any sequence of calls into src/generic/NetworkManager.cpp. -/
inductive MeshRun (plat : Platform) : List MeshEntry → NM → Prop where
  | boot : MeshRun plat [] NM.init
  | send {h m} (p : Packet) (r : Rand) {p' out m' r'} :
      MeshRun plat h m → m.send plat p r = .ok (p', out, m', r') →
      MeshRun plat (⟨.send p, none, out⟩ :: h) m'
  | receive {h m} (rx : Option Packet) {d out m'} :
      MeshRun plat h m → m.receive rx = .ok (d, out, m') →
      MeshRun plat (⟨.receive rx, d, out⟩ :: h) m'

/-- A mesh of `n` nodes.  `flight` holds the receptions that are still to happen: `(i, p)` means
that `p` is on its way to node `i`.  The other fields are logs, newest first: transmissions by
sender, deliveries to the application, and originations. Not from /repo: any number of devices
running src/generic/NetworkManager.cpp. -/
structure Net (n : Nat) where
  node : Fin n → NM
  flight : List (Fin n × Packet)
  sent : List (Fin n × Packet)
  delivered : List (Fin n × Packet)
  originated : List (Fin n × Packet)

namespace Net

/-- All nodes freshly booted, nothing in the air. The constructor, src/generic/NetworkManager.cpp.
-/
def init (n : Nat) : Net n := ⟨fun _ => NM.init, [], [], [], []⟩

/-- Put the packets `out` transmitted by node `i` on the air: every neighbour will hear each of
them once. The medium (not from /repo) behind `Radio::sendPacket`, lib/radio/Radio.hpp. -/
def broadcast {n} (nbrs : Fin n → List (Fin n)) (i : Fin n) (out : List Packet)
    (flight : List (Fin n × Packet)) : List (Fin n × Packet) :=
  flight ++ out.flatMap fun q => (nbrs i).map fun j => (j, q)

/-- The kinds of things that can happen in a mesh. Not from /repo: the calls into
src/generic/NetworkManager.cpp and what the medium does. -/
inductive Kind where
  | originate
  | hear
  | lose
  | duplicate
  deriving DecidableEq, Repr

/-- One event in the mesh with neighbour relation `nbrs`: a node originates a packet through
`NetworkManager::send`; a node hears any packet in flight to it and processes it through
`NetworkManager::receive`; the medium loses or duplicates a reception.
src/generic/NetworkManager.cpp: `send` and `receive`; the medium is not from /repo. -/
inductive Step {n : Nat} (plat : Platform) (nbrs : Fin n → List (Fin n)) :
    Kind → Net n → Net n → Prop where
  | originate (s : Net n) (i : Fin n) (p : Packet) (r : Rand) {p' out m' r'} :
      (s.node i).send plat p r = .ok (p', out, m', r') →
      Step plat nbrs .originate s
        { node := fun j => if j = i then m' else s.node j
          flight := broadcast nbrs i out s.flight
          sent := out.map (i, ·) ++ s.sent
          delivered := s.delivered
          originated := (i, p') :: s.originated }
  | hear (s : Net n) (i : Fin n) (p : Packet) (pre post : List (Fin n × Packet)) {d out m'} :
      s.flight = pre ++ (i, p) :: post →
      (s.node i).receive (some p) = .ok (d, out, m') →
      Step plat nbrs .hear s
        { node := fun j => if j = i then m' else s.node j
          flight := broadcast nbrs i out (pre ++ post)
          sent := out.map (i, ·) ++ s.sent
          delivered := d.toList.map (i, ·) ++ s.delivered
          originated := s.originated }
  | lose (s : Net n) (pre post : List (Fin n × Packet)) (x : Fin n × Packet) :
      s.flight = pre ++ x :: post →
      Step plat nbrs .lose s { s with flight := pre ++ post }
  | duplicate (s : Net n) (x : Fin n × Packet) :
      x ∈ s.flight →
      Step plat nbrs .duplicate s { s with flight := s.flight ++ [x] }

/-- Reachability from a freshly booted mesh by events whose kind is allowed. Not from /repo:
the executions of any number of devices running src/generic/NetworkManager.cpp. -/
inductive Reach {n : Nat} (plat : Platform) (nbrs : Fin n → List (Fin n)) (ok : Kind → Prop) :
    Net n → Prop where
  | boot : Reach plat nbrs ok (init n)
  | step {s s' k} : Reach plat nbrs ok s → ok k → Step plat nbrs k s s' → Reach plat nbrs ok s'

end Net
end Firefly
