/-
A segment of nodes on a CAN bus: framework, transport adapter, CAN driver and controller of each node, and the frames on the bus.
-/
import Verif.Spec.CanNode
import Verif.Spec.Network

namespace Vscp.Spec.CanSegment
open Vscp.Driver
open Vscp.Driver.CanNode (Around Res)

/-- The nodes, how often each of them has been switched on, and for each node the frames of other nodes which its controller has not yet seen.  (On the bus all controllers see a frame at the same time;
here any time may pass, so there are more histories than those of a bus, not less.) -/
structure Segment (ι : Type) where
  life : ι → Nat
  node : ι → CanNode.Node
  inbox : ι → List CanDrv.BusFrame

/-- What the nodes are, each time they are switched on: configuration and surroundings, application, uninitialised variables and progress of the controller. -/
structure Parts (ι : Type) where
  ctx : ι → Nat → Ctx
  cb : ι → Nat → Callbacks
  around : ι → Nat → Around

/-- What can happen: a move of a node (also: its controller sees a frame of something else than a node), the controller of a node sees the next frame of another node, a node is switched on,
perhaps once more, with any memory and any state of the controller (and does not get the frames of before). -/
inductive Move (ι : Type)
  | own (i : ι) (mv : CanNode.Move)
  | deliver (i : ι)
  | power (i : ι) (ok : Tmr → Bool) (ps : Nat → U8) (ctl : CanDrv.State)

variable {ι : Type} [DecidableEq ι] (p : Parts ι)

/-- A move of node `i`, to which `rest` is still on the way.  What its controller sends is on the way to all others. -/
def act (s : Segment ι) (i : ι) (mv : CanNode.Move) (rest : List CanDrv.BusFrame) : Res (Segment ι) :=
  match CanNode.move (p.ctx i (s.life i)) (p.cb i (s.life i)) (p.around i (s.life i)) (s.node i) mv with
  | .ok n => .ok { s with
      node := fun j => if j = i then n else s.node j
      inbox := fun j => if j = i then rest else s.inbox j ++ n.x.2.wire.drop (s.node i).x.2.wire.length }
  | .ub => .ub
  | .impossible => .impossible

def step (s : Segment ι) : Move ι → Res (Segment ι)
  | .own i mv => act p s i mv (s.inbox i)
  | .deliver i =>
    match s.inbox i with
    | [] => .ok s
    | b :: l => act p s i (.rx b) l
  | .power i ok ps ctl => .ok {
      life := fun j => if j = i then s.life i + 1 else s.life j
      node := fun j => if j = i then CanNode.boot (p.ctx i (s.life i + 1)) (p.cb i (s.life i + 1)) ok ps ctl else s.node j
      inbox := fun j => if j = i then [] else s.inbox j }

def run : List (Move ι) → Segment ι → Res (Segment ι)
  | [], s => .ok s
  | mv :: l, s =>
    match step p s mv with
    | .ok s => run l s
    | .ub => .ub
    | .impossible => .impossible

/-- All nodes are switched on. -/
def start (ok : ι → Tmr → Bool) (ps : ι → Nat → U8) (ctl : ι → CanDrv.State) : Segment ι where
  life := fun _ => 0
  node := fun i => CanNode.boot (p.ctx i 0) (p.cb i 0) (ok i) (ps i) (ctl i)
  inbox := fun _ => []

omit [DecidableEq ι] in
/-- The moves of operating nodes (see `CanNode.Ok`). -/
def Ok : Move ι → Prop
  | .own _ mv => CanNode.Ok mv
  | _ => True

/-- Has a frame come since the last cycle of the node: before, and after a move. -/
def next (u : ι → Bool) : Move ι → ι → Bool
  | .own i (.rx _), j => if j = i then true else u j
  | .own i .cycle, j => if j = i then false else u j
  | .own _ _, j => u j
  | .deliver i, j => if j = i then true else u j
  | .power i _ _ _, j => if j = i then false else u j

/-- The framework of each node runs before its controller sees the next frame of another node. -/
def InTurn : (ι → Bool) → List (Move ι) → Prop
  | _, [] => True
  | u, mv :: l => (∀ i, mv = .deliver i → u i = false) ∧ InTurn (next u mv) l

/-- The controller of each node sees the next frame of another node when the framework has heard all frames which the controller has stored.  (This is so if the framework runs in between.) -/
def Paced (s : Segment ι) (l : List (Move ι)) : Prop :=
  ∀ pre i post s1, l = pre ++ .deliver i :: post → run p pre s = .ok s1 → (s1.node i).x.2.stored.length = (s1.node i).heard.length

/-- No active node hears that it is to use another nickname (event of class 0 and type 6). -/
def Unassigned (s : Segment ι) (l : List (Move ι)) : Prop :=
  ∀ pre i post s1 s2, l = pre ++ .own i .cycle :: post → run p pre s = .ok s1 → step p s1 (.own i .cycle) = .ok s2 → (s1.node i).w.v.st = .active →
    ∀ m ∈ (s2.node i).heard.drop (s1.node i).heard.length, ¬(m.cls = 0 ∧ m.typ = 6)

/-- The frame carries an event of class 0 and type 6: a node is to use another nickname. -/
def Assigns (b : CanDrv.BusFrame) : Prop := b.id / 2 ^ 8 % 2 ^ 17 = 6

/-- An event which is none of class 0 and type 6, and is not taken for one by others (the identifier of a frame has nine bits for the class). -/
def Ordinary (m : Msg) : Prop := m.cls.toNat < 512 ∧ ¬(m.cls = 0 ∧ m.typ = 6)

omit [DecidableEq ι] in
/-- Neither an application nor something else than a node tells a node to use another nickname. -/
def Modest : Move ι → Prop
  | .own _ (.rx b) => ¬Assigns b
  | .own _ (.call (.sendEvent m)) => Ordinary m
  | _ => True

omit [DecidableEq ι] in
/-- Nothing is on the way to or from the node: it has heard all frames, and its controller has sent all its frames. -/
def Silent (s : Segment ι) (i : ι) : Prop :=
  s.inbox i = [] ∧ (s.node i).x.2.stored.length = (s.node i).heard.length ∧ (s.node i).x.2.wire.length = (Spec.CanNode.taken (s.node i).w.out).length

end Vscp.Spec.CanSegment
