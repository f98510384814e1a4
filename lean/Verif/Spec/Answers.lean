/-
Answers to probes on a CAN bus, and who gives them.
-/
import Verif.Spec.AvrSegment

namespace Vscp.Spec.CanSegment
open Vscp.Driver

/-- The frame carries an event of class 0 and type 3: the node with nickname `q` answers a probe. -/
def Answers (b : CanDrv.BusFrame) (q : U8) : Prop := b.id / 2 ^ 8 % 2 ^ 17 = 3 ∧ b.id % 2 ^ 8 = q.toNat

/-- Neither an application nor something else than a node answers a probe. -/
def Reserved {ι : Type} : Move ι → Prop
  | .own _ (.rx b) => ∀ q, ¬Answers b q
  | .own _ (.call (.sendEvent m)) => m.cls.toNat < 512 ∧ ¬(m.cls = 0 ∧ m.typ = 3)
  | _ => True

/-- The application does nothing else in its callbacks than to send events, and none which answers a probe. -/
def Reports (cb : Callbacks) : Prop := ∀ w, ∀ op ∈ cb w, ∃ m, op = .sendEvent m ∧ m.cls.toNat < 512 ∧ ¬(m.cls = 0 ∧ m.typ = 3)

end Vscp.Spec.CanSegment

namespace Vscp.Spec.AvrSegment

/-- Nothing else than the examples answers a probe. -/
def Reserved {ι : Type} : Move ι → Prop
  | .own _ (.rx b) => ∀ q, ¬CanSegment.Answers b q
  | _ => True

end Vscp.Spec.AvrSegment
