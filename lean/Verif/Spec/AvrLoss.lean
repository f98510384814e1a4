/-
Specification: the power of the AVR example is lost in the middle of a step of its main loop (C113, C115).
-/
import Verif.Model.AvrSys
import Verif.Spec.PowerLoss

namespace Vscp.Spec.AvrSys
open Vscp.Avr.Sys

/-- All that the example has done since it was first switched on. -/
def record (y : State) : List Out := y.fw.past ++ y.fw.w.out

/-- The memory of the example if the power is lost behind the first `k` effects of the move from `y` to `y'`. -/
def found (y y' : State) (k : Nat) : Nat → U8 := memAfter y.fw.w.ps (((record y').drop (record y).length).take k)

end Vscp.Spec.AvrSys
