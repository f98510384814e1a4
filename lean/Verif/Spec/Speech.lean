/-
Specification of the frames a node sends: what it sends each of them for.
-/
import Verif.Spec.States
import Verif.Spec.Time

namespace Vscp.Spec

/-- Which type of response answers which type of request, both of the protocol class: probe, set nickname, read, write, increment and
decrement register, enter boot loader (refused), page read and write, who is there, get decision matrix info, extended page read and write. -/
def answers : List (U8 × U8) :=
  [(2, 3), (6, 7), (9, 10), (11, 10), (29, 10), (30, 10), (12, 14), (24, 26), (25, 26), (31, 32), (33, 34), (37, 39), (38, 39)]

/-- The node is told to send the event `f` in the cycle which begins in state `w`. -/
inductive Reason (c : Ctx) (rx : Option Msg) (w : W) (f : Msg) : Prop
  /-- It is active and receives a request in this cycle, which is addressed to it, and `f` is of the type of the response. -/
  | answer (m : Msg) (h : Takes c rx w m) (hm : m.cls = 0) (hc : concerns m w.v.nick) (hf : f.cls = 0) (ht : (m.typ, f.typ) ∈ answers)
  /-- It is active, and an extended page read which was requested before is not yet complete. -/
  | stream (ha : w.v.st = .active) (h : 0 < w.v.ext.count.toNat) (hf : f.cls = 0) (ht : f.typ = 39)
  /-- It is active, and its heartbeat is configured, switched on and due; the application does not send its own. -/
  | heartbeat (ha : w.v.st = .active) (h : c.hbNode = true) (hon : w.v.hbOn = true) (hc : c.customHb = false)
      (ht : w.tm.ok .heartbeat = true → w.tm.rem .heartbeat = 0) (hf : f.cls = 20 ∧ f.typ = 9)
  /-- It looks for a nickname and probes for the segment master. -/
  | probeMaster (h : w.v.st = .init) (hi : w.v.ist = .probeMaster) (hf : f = event c w.v.nick 7 2 [0])
  /-- It looks for a nickname and probes the next one. -/
  | probe (h : w.v.st = .init) (hi : w.v.ist = .probe) (hf : f = event c w.v.nick 7 2 [w.v.probe])
  /-- It becomes active in this cycle and announces its nickname. -/
  | online (h : w.v.st = .startup ∨ w.v.st = .init ∨ w.v.st = .preActive) (ha : (stepOp c (.process rx) w).2.v.st = .active)
      (hf : f = event c (stepOp c (.process rx) w).2.v.nick 0 2 [(stepOp c (.process rx) w).2.v.nick])
  /-- It waits for a nickname from the segment master, and gets it in this cycle. -/
  | accepted (m : Msg) (h : w.v.st = .preActive) (hr : (Transport.readMessage c rx w).1 = some m) (hm : m.cls = 0 ∧ m.typ = 6 ∧ m.oAddr = 0)
      (hd : m.data[0] = 0xFF) (hn : (stepOp c (.process rx) w).2.v.nick = m.data[1])
      (hf : f = event c m.data[1] 7 7 [])

/-- The node is told to send the event `f` by the call. -/
def Told (c : Ctx) (op : Op) (w : W) (f : Msg) : Prop :=
  match op with
  | .process rx => Reason c rx w f
  | .sendEvent m => f = m
  | .log .. | .logUInt32 .. => f.cls = 509 ∧ f.typ = 1
  | _ => False

/-- A history in which an active node is told nothing: time passes, and it receives events of other classes and events for other nodes only. -/
def Unasked (c : Ctx) : List Op → W → Prop
  | [], _ => True
  | op :: ops, w => ((∃ ms, op = .tick ms) ∨ ∃ rx, op = .process rx ∧
      ∀ m, Takes c rx w m → m.cls ≠ 0 ∨ (m.typ ∈ addressed ∧ ¬ concerns m w.v.nick)) ∧ Unasked c ops (stepOp c op w).2

end Vscp.Spec
