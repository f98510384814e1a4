/-
Specification of what a node may do at all, given the features it is configured with.
-/
import Verif.Spec.Trace
import Verif.Model.Node

namespace Vscp.Spec

/-- The calls a node with the given configuration makes on its own: each callback only if its feature is configured, and as
frames only the protocol events a node sends and the node heartbeat.  (Types of the class 0: 2 new node online, 3 probe
acknowledge, 7 nickname accepted, 10 register response, 14 boot loader rejected, 26 page response, 32 who is there response,
34 decision matrix info response, 39 extended page response.) -/
def Enabled (c : Cfg) : Out → Prop
  | .tx m _ => m.cls = 0 ∧ m.typ ∈ [2, 3, 7, 10, 14, 26, 32, 34, 39] ∨
      m.cls = 20 ∧ m.typ = 9 ∧ m.prio = 3 ∧ c.hbNode = true ∧ c.customHb = false
  | .idleEntered => c.idleCallout = true
  | .errorEntered => c.errorCallout = true
  | .customHeartbeat => c.hbNode = true ∧ c.customHb = true
  | .timeUpdate _ => c.hbSegment = true ∧ c.segTimeCallout = true
  | .protoEvent .. => c.protoNotify = true
  | .action .. => c.dm = true ∨ c.dmNg = true
  | .bootLoaderRequest => c.bootLoader = true
  | _ => True

instance (c : Cfg) (o : Out) : Decidable (Enabled c o) := by cases o <;> (unfold Enabled; infer_instance)

/-- The calls a node makes because the application asked for them: the frames the application passes on itself, and log frames. -/
def Asked (ops : List Op) : Out → Prop
  | .tx m _ => .sendEvent m ∈ ops ∨
      m.cls = 509 ∧ m.typ = 1 ∧ ops.any (fun op => match op with | .log .. | .logUInt32 .. => true | _ => false) = true
  | _ => False

end Vscp.Spec
