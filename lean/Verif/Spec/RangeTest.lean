import Verif.Model.RangeTest

/-! # Specification vocabulary for the range tester -/

namespace Firefly.Spec
open RangeTest

/-- When the tester received a frame in this iteration, if it did: the first one with at least one
byte of payload offered within 5 ms of the beginning of the iteration. -/
def hearsAt (inp : Input) : Option U32 :=
  ((inp.polls.takeWhile fun x => decide (x.now - inp.orig < 5)).find? fun x =>
    x.frame.any fun f => decide (4 ≤ f.length)).map (·.at_)

/-- The last time the tester received a frame, in a run whose iterations are listed newest first; 0
if never. -/
def lastHeardAt : List Input → U32
  | [] => 0
  | inp :: h => (hearsAt inp).getD (lastHeardAt h)

end Firefly.Spec
