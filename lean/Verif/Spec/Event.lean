/-
When two events are the same.
-/
import Verif.Spec.CanNode

namespace Vscp.Spec

/-- The same event: all that is transmitted of it.  (The bytes behind the payload are not.) -/
structure SameEvent (m m' : Msg) : Prop where
  prio : m'.prio = m.prio
  cls : m'.cls = m.cls
  typ : m'.typ = m.typ
  origin : m'.oAddr = m.oAddr
  hard : m'.hard = m.hard
  size : m'.size = m.size
  data : m'.data.toList.take m'.size.toNat = m.data.toList.take m.size.toNat

end Vscp.Spec
