import Verif.Model.OptionBytes

/-! # Specification vocabulary for the boot option -/

namespace Firefly.Spec
open OptionBytes

/-- The option bytes are as the program wants them: the bits `mask` are clear for the fancy node, and not
all clear for the controller. -/
def Suits (mask : U32) : Firmware → U32 → Prop
  | .fancyNode, v => v &&& mask = 0
  | .controller, v => v &&& mask ≠ 0

/-- How often another program was loaded than the one before (newest first). -/
def reloads : List Start → Nat
  | [] => 0
  | [_] => 0
  | s :: s' :: h => reloads (s' :: h) + if s.firmware = s'.firmware then 0 else 1

end Firefly.Spec
