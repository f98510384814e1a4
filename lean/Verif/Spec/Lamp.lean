/-
What the init lamp of a node shows.
-/
import Verif.Model.World

namespace Vscp.Spec

/-- The lamp in a state of the node. -/
def lampOf : St → Lamp
  | .startup => .blinkSlow
  | .init | .preActive => .blinkFast
  | .active => .on
  | .idle | .reset | .error => .off

/-- The lamp after the calls `t`: the last one counts; before any call it is dark. -/
def lampAfter : Lamp → List Out → Lamp
  | l, [] => l
  | _, .lamp l :: t => lampAfter l t
  | l, _ :: t => lampAfter l t

end Vscp.Spec
