/-
Specification of the frames a node sends whose application calls the framework in its callbacks: what each of them is sent for.
-/
import Verif.Spec.Speech
import Verif.Model.Callout

namespace Vscp.Spec

/-- A call of the application in which it may react. -/
def reacts : Out → Prop
  | .event _ | .protoEvent .. | .action .. | .timeUpdate _ | .customHeartbeat => True
  | _ => False

/-- Between the traces `t` and `e` the application got control in state `x`, with the callback which is the last entry of the trace of `x`. -/
def Reacting (t e : List Out) (x : W) : Prop := ∃ t1 o t2, x.out = t ++ t1 ++ [o] ∧ reacts o ∧ e = x.out ++ t2

/-- The node is told to send the event `f` in the cycle which begins in state `w`; `e` is the trace behind this cycle. -/
inductive ReasonC (c : Ctx) (cb : Callbacks) (rx : Option Msg) (w : W) (e : List Out) (f : Msg) : Prop
  /-- The application sends it in a callback of this cycle. -/
  | app (x : W) (hx : Reacting w.out e x) (h : .sendEvent f ∈ cb x)
  /-- The application logs in a callback of this cycle. -/
  | log (x : W) (hx : Reacting w.out e x) (h : (∃ id level s, .log id level s ∈ cb x) ∨ ∃ id level v, .logUInt32 id level v ∈ cb x)
      (hf : f.cls = 509 ∧ f.typ = 1)
  /-- It is active and receives a request in this cycle, and `f` is of the type of the response.  The request is addressed to the node, unless the
  application, asked about the request, changed the nickname. -/
  | answer (m : Msg) (h : Takes c rx w m) (hm : m.cls = 0)
      (hc : concerns m w.v.nick ∨ (c.protoNotify = true ∧ ∃ x, Reacting w.out e x ∧ (.startNodeSegmentInit ∈ cb x ∨ .restore ∈ cb x)))
      (hf : f.cls = 0) (ht : (m.typ, f.typ) ∈ answers)
  /-- It is active, and an extended page read which was requested before is not yet complete. -/
  | stream (ha : w.v.st = .active) (h : 0 < w.v.ext.count.toNat) (hf : f.cls = 0) (ht : f.typ = 39)
  /-- It is active, and its heartbeat is configured and due, and switched on, or the application uses the switch in a callback of this cycle; the
  application does not send its own. -/
  | heartbeat (ha : w.v.st = .active) (h : c.hbNode = true)
      (hon : w.v.hbOn = true ∨ ∃ x b, Reacting w.out e x ∧ .enableHeartbeat b ∈ cb x)
      (hc : c.customHb = false) (ht : w.tm.ok .heartbeat = true → w.tm.rem .heartbeat = 0) (hf : f.cls = 20 ∧ f.typ = 9)
  /-- It looks for a nickname, becomes active or accepts a nickname: then there are no callbacks, see `Reason`. -/
  | other (h : w.v.st ≠ .active) (r : Reason c rx w f)

/-- The node is told to send the event `f` by the call. -/
def ToldC (c : Ctx) (cb : Callbacks) (op : Op) (w : W) (f : Msg) : Prop :=
  match op with
  | .process rx => ReasonC c cb rx w (stepOpC c cb (.process rx) w).2.out f
  | op => Told c op w f

end Vscp.Spec
