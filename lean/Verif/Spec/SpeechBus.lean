/-
Specification of the frames the AVR example sends: what it sends each of them for.
-/
import Verif.Spec.SpeechC
import Verif.Model.AvrApp

namespace Vscp.Spec

/-- The AVR example is told to send the event `f` in a cycle which begins in state `w` and has the trace `e` behind it: by a reason which the
framework has, or because an action switches the lamp in this cycle, which is confirmed to all zones. -/
inductive AvrReason (c : Ctx) (rx : Option Msg) (w : W) (e : List Out) (f : Msg) : Prop
  | framework (r : Reason c rx w f)
  | lamp (t1 t2 : List Out) (a p : U8) (m : Msg) (he : e = w.out ++ t1 ++ .action a p m :: t2)
      (ha : a = 1 ∧ f.typ = 3 ∨ a = 2 ∧ f.typ = 4) (hf : f.cls = 20 ∧ f.prio = 3 ∧ payload f = [0, 0xFF, 0xFF])

end Vscp.Spec
