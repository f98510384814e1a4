/-
What is said about histories of the ARM example.
-/
import Verif.Model.ArmApp

namespace Vscp.Spec.Arm
open Vscp.Arm

/-- The milliseconds of a history. -/
def millis (l : List Move) : Nat := l.countP fun m => match m with
  | .tick _ => true
  | .step _ => false

/-- The steps of the main loop in a history; a pass of the main loop has four. -/
def loopSteps (l : List Move) : Nat := l.countP fun m => match m with
  | .tick _ => false
  | .step _ => true

/-- Nobody touches the button. -/
def untouched (l : List Move) : Prop := .tick true ∉ l

/-- For how many milliseconds has nobody pressed the button, at the end of a history? -/
def released (l : List Move) : Nat := l.foldl (fun k m => match m with
  | .tick true => 0
  | .tick false => k + 1
  | .step _ => k) 0

/-- What the CAN adapter delivers to the ARM example (see C92): nothing, or the event with identifier 0 (CLASS1.PROTOCOL, type 0). -/
def deafTo (rx : Option Msg) : Prop := ∀ m, rx = some m → m.cls = 0 ∧ m.typ = 0

end Vscp.Spec.Arm
