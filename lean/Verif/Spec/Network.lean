/-
A segment: any number of nodes which receive each other's frames, with any delay and in any interleaving.
-/
import Verif.Spec.Discovery
import Verif.Props.Transport

namespace Vscp.Spec

/-- The nodes of a segment, and for each of them the frames which are on the way to it. -/
structure Net (ι : Type) where
  node : ι → W
  inbox : ι → List Msg

/-- What can happen: a call of a node (also time passing for it; also a cycle with a frame of something else than a node), or a cycle of a node in which its adapter delivers
the oldest frame on the way to it, or nothing. -/
inductive Move (ι : Type)
  | call (i : ι) (op : Op)
  | cycle (i : ι) (deliver : Bool)

variable {ι : Type}

/-- The frames which were transmitted successfully between two states of a node. -/
def framesSent (w w' : W) : List Msg :=
  (w'.out.drop w.out.length).filterMap fun o => match o with
    | .tx m true => some m
    | _ => none

namespace Move

/-- The node which does it. -/
def who : Move ι → ι
  | .call i _ => i
  | .cycle i _ => i

/-- The call it is for the node. -/
def op (s : Net ι) : Move ι → Op
  | .call _ op => op
  | .cycle i deliver => .process (if deliver then (s.inbox i).head? else none)

/-- The frames still on the way to the node. -/
def rest (s : Net ι) : Move ι → List Msg
  | .call i _ => s.inbox i
  | .cycle i deliver => if deliver then (s.inbox i).tail else s.inbox i

end Move

namespace Net
variable [DecidableEq ι] (cs : ι → Ctx)

/-- Every frame sent by a node is on the way to all others. -/
def step (s : Net ι) (mv : Move ι) : Net ι where
  node := fun j => if j = mv.who then (stepOp (cs mv.who) (mv.op s) (s.node mv.who)).2 else s.node j
  inbox := fun j => if j = mv.who then mv.rest s
    else s.inbox j ++ framesSent (s.node mv.who) (stepOp (cs mv.who) (mv.op s) (s.node mv.who)).2

def run : List (Move ι) → Net ι → Net ι
  | [], s => s
  | mv :: l, s => run l (step cs s mv)

/-- All nodes are initialised, with any persistent memory. -/
def start (ok : ι → Tmr → Bool) (ps : ι → Nat → U8) : Net ι where
  node := fun i => runOps (cs i) [.init (ok i)] (powerUp (ps i))
  inbox := fun _ => []

/-- The frames the node has not yet seen: the ones in its loopback queue (C09), and the ones on the way. -/
def unread (s : Net ι) (i : ι) : List Msg := Transport.drain (cs i) (cs i).loopbackNum (s.node i) ++ s.inbox i

/-- Every node has seen all frames. -/
def silent (s : Net ι) : Prop := ∀ i, unread cs s i = []

/-- The event the node sees in this move. -/
def sees (s : Net ι) (mv : Move ι) : Option Msg :=
  match mv.op s with
  | .process rx => (Transport.readMessage (cs mv.who) rx (s.node mv.who)).1
  | _ => none

end Net

/-- A probe of, or the announcement of a node with, nickname `q`. -/
def IsProbe (m : Msg) (q : U8) : Prop := m.cls = 0 ∧ m.typ = 2 ∧ m.size = 1 ∧ m.data[0] = q

/-- The answer of the node with nickname `q`. -/
def IsAck (m : Msg) (q : U8) : Prop := m.cls = 0 ∧ m.typ = 3 ∧ m.size = 0 ∧ m.oAddr = q

/-- The node is active with nickname `q`. -/
def uses (w : W) (q : U8) : Prop := w.v.st = .active ∧ w.v.nick = q

/-- The node has probed the nickname `q` and waits for an answer. -/
def awaits (w : W) (q : U8) : Prop := w.v.st = .init ∧ w.v.ist = .probeWait ∧ w.v.probe = q

/-- Every transmission succeeds; the application does not take protocol events away from the framework; the loopback queue fits. -/
structure Reliable (cs : ι → Ctx) : Prop where
  tx : ∀ i n, (cs i).txOk n = true
  proto : ∀ i n, (cs i).protoNotify = true → (cs i).protoHandled n = false
  lb : ∀ i, (cs i).loopback = true → Transport.LoopbackCfg (cs i)

end Vscp.Spec
