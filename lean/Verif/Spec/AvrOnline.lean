/-
The announcement of a node on a CAN bus.
-/
import Verif.Spec.AvrPower
import Verif.Spec.Registers

namespace Vscp.Spec.AvrSegment

/-- "New node on line" of the node with the nickname `n`: class 0, type 2, priority 0, from the node, with its nickname. -/
structure Online (n : U8) (m : Msg) : Prop where
  cls : m.cls = 0
  typ : m.typ = 2
  prio : m.prio = 0
  origin : m.oAddr = n
  hard : m.hard = false
  data : payload m = [n]

end Vscp.Spec.AvrSegment
