/-
What is expected of the main programs of the examples.
-/
import Verif.Model.Main

namespace Vscp.Spec.Main
open Vscp.Driver

/-- The number of ticks in a history of `timerDrv_sleep`. -/
def sleepTicks (l : List Sleep.Move) : Nat := l.count .tick

/-- For how many ticks has the button been pressed, without a break, behind an event? -/
def heldStep (k : Nat) : Button.Ev → Nat
  | .tick true => k + 1
  | .tick false => 0
  | .segInit => k

/-- For how many ticks has the button been pressed, without a break, at the end of what was seen? -/
def held (t : List Button.Ev) : Nat := t.foldl heldStep 0

/-- The history in which tick `i` finds the button in the state given by the list, and the main loop runs `k` times completely (`k` of the list) behind it. -/
def rounds (l : List (Bool × Nat)) : List Button.Move :=
  l.flatMap fun x => .tick x.1 :: List.replicate (2 * x.2) .step

/-- What is to be seen: the initialisation is started once for each press, at tick 101 of it; `k` ticks have passed since the press so far. -/
def expected (k : Nat) : List Bool → List Button.Ev
  | [] => []
  | true :: l => .tick true :: ((if k = 100 then [.segInit] else []) ++ expected (k + 1) l)
  | false :: l => .tick false :: expected 0 l

/-- The number of milliseconds in a history of the main loop. -/
def loopTicks (l : List MainLoop.Move) : Nat := l.count .tick

/-- Does the call start or stop timer `id`? -/
def loopConcerns (id : U8) : MainLoop.Move → Bool
  | .start i _ => i == id
  | .stop i => i == id
  | _ => false

/-- Is each tick followed by a poll in front of the next tick (and of the end)? -/
def polled : List MainLoop.Move → Bool
  | [] => true
  | .tick :: l => (l.takeWhile (· ≠ .tick)).contains .poll && polled l
  | _ :: l => polled l

end Vscp.Spec.Main
