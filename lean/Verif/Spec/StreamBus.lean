/-
Specification: what ends or replaces an extended page read (C116).
-/
import Verif.Spec.Wear
import Verif.Spec.Stream

namespace Vscp.Spec

/-- The event is an extended page read or an extended page write for the node: the answers to both have the same type. -/
def AnotherExt (w : W) (m : Msg) : Prop := m.cls = 0 ∧ (m.typ = 37 ∨ m.typ = 38) ∧ (payload m)[0]? = some w.v.nick

instance (w : W) (m : Msg) : Decidable (AnotherExt w m) := by unfold AnotherExt; infer_instance

/-- A history in which the node stays active, its settings are not reset to the factory settings, it does not take a further extended page
read or write, and the application does not send the response event itself.  Everything else can happen: any event of the application, any
other protocol event for this node or for another one, any call of the interface. -/
def Undisturbed (c : Ctx) : List Op → W → Prop
  | [], _ => True
  | op :: ops, w => w.v.st = .active ∧ ¬ factoryReset w (stepOp c op w).2 ∧
      (∀ rx m, op = .process rx → Takes c rx w m → ¬ AnotherExt w m) ∧
      (∀ m, op = .sendEvent m → ¬(m.cls = 0 ∧ m.typ = 39)) ∧ Undisturbed c ops (stepOp c op w).2

/-- A history in which the node keeps its nickname. -/
def KeepsNick (c : Ctx) (n : U8) : List Op → W → Prop
  | [], w => w.v.nick = n
  | op :: ops, w => w.v.nick = n ∧ KeepsNick c n ops (stepOp c op w).2

end Vscp.Spec
