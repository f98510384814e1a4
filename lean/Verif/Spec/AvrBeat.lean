/-
What is expected of the heartbeat of the AVR example.
-/
import Verif.Spec.AvrSys
import Verif.Spec.Time
import Verif.Model.AvrApp

namespace Vscp.Spec.AvrSys
open Vscp.Avr.Sys

/-- The node is active before each move of a piece of history and behind the last one. -/
def Stays (s : Avr.Surr) (a : Nat → Driver.CanNode.Around) (l : List Move) (y : State) : Prop :=
  ∀ l1 l2 y1, l = l1 ++ l2 → run s a l1 y = .ok y1 → y1.fw.w.v.st = .active

/-- The heartbeat of the example behind a move: class 20, type 9, priority 3, from the node, with the index 0 and the stored zone and sub-zone. -/
structure Beat (s : Avr.Surr) (y : State) (m : Msg) : Prop where
  cls : m.cls = 20
  typ : m.typ = 9
  prio : m.prio = 3
  origin : m.oAddr = y.fw.w.v.nick
  hard : m.hard = false
  data : payload m = [0, y.fw.w.ps (Ps.addrZone (Avr.cfg s.sz)), y.fw.w.ps (Ps.addrSubZone (Avr.cfg s.sz))]

end Vscp.Spec.AvrSys
