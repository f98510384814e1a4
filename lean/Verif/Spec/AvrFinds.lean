/-
AVR examples which keep their nicknames.
-/
import Verif.Spec.AvrSegment
import Verif.Spec.Network

namespace Vscp.Spec.AvrSegment
open Vscp.Avr Vscp.Avr.Sys

variable {ι : Type} [DecidableEq ι]

/-- Example `a` does not use different nicknames in a history (it may use none). -/
def OneName (p : Parts ι) (s : Segment ι) (l : List (Move ι)) (a : ι) : Prop :=
  ∀ l1 l2 s1 q l1' l2' s1' q', l = l1 ++ l2 → run p l1 s = .ok s1 → uses (s1.node a).fw.w q → l = l1' ++ l2' → run p l1' s = .ok s1' → uses (s1'.node a).fw.w q' → q = q'

end Vscp.Spec.AvrSegment
