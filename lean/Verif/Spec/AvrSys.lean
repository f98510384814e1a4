/-
What is expected of the AVR example as a whole.
-/
import Verif.Model.AvrSys
import Verif.Spec.CanNode
import Verif.Spec.States

namespace Vscp.Spec.AvrSys
open Vscp.Avr.Sys

/-- Frames on the bus are valid. -/
def Ok : Move → Prop
  | .rx b => Spec.CanDrv.Valid b
  | _ => True

/-- Milliseconds in a history. -/
def ticks : List Move → Nat
  | [] => 0
  | .tick _ :: l => ticks l + 1
  | _ :: l => ticks l

/-- The steps of the main loop until the next millisecond. -/
def stepsNow : List Move → Nat
  | [] => 0
  | .tick _ :: _ => 0
  | .step :: l => stepsNow l + 1
  | _ :: l => stepsNow l

/-- The main loop is fast enough: it runs completely in each millisecond. -/
def Fast : List Move → Prop
  | [] => True
  | .tick _ :: l => 4 ≤ stepsNow l ∧ Fast l
  | _ :: l => Fast l

/-- The frames other nodes send in a history. -/
def offered : List Move → List Driver.CanDrv.BusFrame
  | [] => []
  | .rx b :: l => b :: offered l
  | _ :: l => offered l

/-- The states of the button in the milliseconds of a history. -/
def button : List Move → List Bool
  | [] => []
  | .tick b :: l => b :: button l
  | _ :: l => button l

/-- The button is pressed for 101 ms without a break. -/
def Held (l : List Move) : Prop := ∃ p q, button l = p ++ List.replicate 101 true ++ q

/-- Nobody presses the button, and the power stays on. -/
def Alone : Move → Prop
  | .tick b => b = false
  | .power => False
  | _ => True

/-- Between two frames of other nodes the main loop runs once; `k`: the steps it still has to make before the next frame. -/
def Paced : Nat → List Move → Prop
  | _, [] => True
  | k, .rx _ :: l => k = 0 ∧ Paced 4 l
  | k, .step :: l => Paced (k - 1) l
  | k, _ :: l => Paced k l

/-- The milliseconds the framework is told. -/
def told : List Driver.CanNode.Move → Nat
  | [] => 0
  | .call (.tick ms) :: l => ms + told l
  | _ :: l => told l

/-- The starts of the segment initialisation in a history of the node. -/
def starts : List Driver.CanNode.Move → Nat
  | [] => 0
  | .call .startNodeSegmentInit :: l => starts l + 1
  | _ :: l => starts l

/-- The states of the button which were seen. -/
def seen : List Driver.Button.Ev → List Bool
  | [] => []
  | .tick b :: l => b :: seen l
  | .segInit :: l => seen l

/-- The firmware is in the middle of a pass of its main loop which began with `f`. -/
def Within (s : Avr.Surr) (f g : Avr.Fw) : Pc → Prop
  | .process => g = f
  | .check => ∃ rx, (∀ m, rx = some m → m.size.toNat ≤ 8) ∧ g = Avr.call s (.process rx) f ∧ .resetRequest ∉ g.w.out.drop f.w.out.length
  | .remember => ∃ rx p, (∀ m, rx = some m → m.size.toNat ≤ 8) ∧ .resetRequest ∉ (Avr.call s (.process rx) f).w.out.drop f.w.out.length ∧
      g = { Avr.button s ⟨rx, p, false, false⟩ (Avr.call s (.process rx) f) with last := f.last }
  | .periodic => ∃ rx p p', (∀ m, rx = some m → m.size.toNat ≤ 8) ∧ .resetRequest ∉ (Avr.call s (.process rx) f).w.out.drop f.w.out.length ∧
      g = Avr.button s ⟨rx, p, p', false⟩ (Avr.call s (.process rx) f)

end Vscp.Spec.AvrSys
