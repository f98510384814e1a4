/-
Specification for the time base of the AVR example (C106): the time in clocks of the timer, and the time for which an interrupt waits.
-/
import Verif.Model.TimerDrv

namespace Vscp.Spec.TimerDrv
open Vscp.Driver.TimerDrv

/-- Clocks of the CPU in a second (`F_CPU`). -/
def CPU : Nat := 16000000

/-- How much time has passed, in clocks of the timer. -/
def clocks (l : List Move) : Nat := l.countP (· == .clock)

/-- The hardware alone, seen from outside: how many clocks an interrupt was due but not yet served.  `d`: is one due?  `k`: clocks until the next
one is due. -/
def late : Bool → Nat → List Move → Nat
  | _, _, [] => 0
  | true, k, .clock :: l => 1 + late true k l
  | true, _, .isr :: l => late false 200 l
  | false, k, .clock :: l => late (k == 1) (k - 1) l
  | d, k, _ :: l => late d k l

end Vscp.Spec.TimerDrv
