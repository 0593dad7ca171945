import Verif.Spec.Remote
import Verif.Spec.Mesh

/-! # Specification vocabulary for which frames a device takes for new -/

namespace Firefly.Spec

/-- The number of a frame: its first two bytes. -/
def numberOf (f : List U8) : U16 := BitVec.ofNat 16 (256 * (f.getD 0 0).toNat + (f.getD 1 0).toNat)

/-- The numbers of the last five frames of a list (oldest first); numbers missing count as 0. -/
def lastNumbers (aired : List (List U8)) : List U16 := lastFive (aired.map numberOf).reverse

/-- The same iteration without the frame received first. -/
def withoutFrame (inp : Board.Input) : Board.Input :=
  { inp with first := { inp.first with frame := none } }

end Firefly.Spec
