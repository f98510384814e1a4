/-
One AVR example of a segment: what it does by itself, and that it stays active.
-/
import Verif.Spec.AvrSegment
import Verif.Spec.AvrBeat

namespace Vscp.Spec.AvrSegment
open Vscp.Avr Vscp.Avr.Sys

variable {ι : Type} [DecidableEq ι]

/-- What happens in example `i` in a history of the segment: the milliseconds of its time, the steps of its main loop and so on, without the frames of the other examples. -/
def mine (i : ι) : List (Move ι) → List Sys.Move
  | [] => []
  | .own j mv :: l => if j = i then mv :: mine i l else mine i l
  | .deliver _ :: l => mine i l

/-- Example `i` is active before each move of a piece of history and behind the last one. -/
def Remains (p : Parts ι) (i : ι) (l : List (Move ι)) (s : Segment ι) : Prop :=
  ∀ l1 l2 s1, l = l1 ++ l2 → run p l1 s = .ok s1 → (s1.node i).fw.w.v.st = .active

end Vscp.Spec.AvrSegment
