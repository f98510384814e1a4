/-
A segment of AVR examples: each of them as a whole (see Verif.Model.AvrSys), and the frames on the bus.
-/
import Verif.Model.AvrSys
import Verif.Spec.AvrSys
import Verif.Spec.CanSegment

namespace Vscp.Spec.AvrSegment
open Vscp.Driver Vscp.Avr Vscp.Avr.Sys
open Vscp.Driver.CanNode (Around Res)

/-- The examples, and for each of them the frames of the others which its controller has not yet seen (see `CanSegment.Segment`). -/
structure Segment (ι : Type) where
  node : ι → State
  inbox : ι → List CanDrv.BusFrame

/-- What is left open of each example: its surroundings, uninitialised variables and the progress of its controller while the driver works. -/
structure Parts (ι : Type) where
  surr : ι → Surr
  around : ι → Nat → Around

/-- What can happen: something in an example (a millisecond passes, with the button pressed or not; the main loop goes on; its controller sends a frame, or sees one of something else than one of the
examples; power off and on), or the controller of an example sees the next frame of another one. -/
inductive Move (ι : Type)
  | own (i : ι) (mv : Sys.Move)
  | deliver (i : ι)

/-- The frames the controller of an example sends in a move.  (An example which restarts sends none in this move, see `reset_sends`.) -/
def sends (y y' : State) : List CanDrv.BusFrame := if y'.fw.life = y.fw.life then y'.x.2.wire.drop y.x.2.wire.length else []

variable {ι : Type} [DecidableEq ι] (p : Parts ι)

/-- A move of example `i`, to which `rest` is still on the way.  What its controller sends is on the way to all others.  If it restarts, it does not get the frames of before. -/
def act (s : Segment ι) (i : ι) (mv : Sys.Move) (rest : List CanDrv.BusFrame) : Res (Segment ι) :=
  match Sys.move (p.surr i) (p.around i) (s.node i) mv with
  | .ok y => .ok {
      node := fun j => if j = i then y else s.node j
      inbox := fun j => if j = i then (if y.fw.life = (s.node i).fw.life then rest else []) else s.inbox j ++ sends (s.node i) y }
  | .ub => .ub
  | .impossible => .impossible

def step (s : Segment ι) : Move ι → Res (Segment ι)
  | .own i mv => act p s i mv (s.inbox i)
  | .deliver i =>
    match s.inbox i with
    | [] => .ok s
    | b :: l => act p s i (.rx b) l

def run : List (Move ι) → Segment ι → Res (Segment ι)
  | [], s => .ok s
  | mv :: l, s =>
    match step p s mv with
    | .ok s => run l s
    | .ub => .ub
    | .impossible => .impossible

/-- All examples are switched on, with any memory and any state of the controller. -/
def start (ps : ι → Nat → U8) (ctl : ι → CanDrv.State) : Segment ι := ⟨fun i => boot (p.surr i) [] 0 (ps i) (ctl i), fun _ => []⟩

omit [DecidableEq ι] in
/-- Frames on the bus are valid. -/
def Ok : Move ι → Prop
  | .own _ mv => AvrSys.Ok mv
  | .deliver _ => True

omit [DecidableEq ι] in
/-- Nothing else than the examples tells a node to use another nickname. -/
def Modest : Move ι → Prop
  | .own _ (.rx b) => ¬CanSegment.Assigns b
  | _ => True

/-- The steps of the main loop which an example still has to make before the next frame: before, and after a move. -/
def next (u : ι → Nat) : Move ι → ι → Nat
  | .own i (.rx _), j => if j = i then 4 else u j
  | .own i .step, j => if j = i then u j - 1 else u j
  | .own _ _, j => u j
  | .deliver i, j => if j = i then 4 else u j

/-- The main loop of each example runs once before its controller sees the next frame of another one. -/
def InTurn : (ι → Nat) → List (Move ι) → Prop
  | _, [] => True
  | u, mv :: l => (∀ i, mv = .deliver i → u i = 0) ∧ InTurn (next u mv) l

omit [DecidableEq ι] in
/-- Nothing is on the way to or from the example: it has heard all frames, and its controller has sent all its frames. -/
def Silent (s : Segment ι) (i : ι) : Prop :=
  s.inbox i = [] ∧ (s.node i).x.2.stored.length = (s.node i).heard.length ∧ (s.node i).x.2.wire.length = (Spec.CanNode.taken (s.node i).fw.w.out).length

end Vscp.Spec.AvrSegment
