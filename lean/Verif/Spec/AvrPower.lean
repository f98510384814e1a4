/-
Losses of power in a configured segment of AVR examples.
-/
import Verif.Spec.AvrLives

namespace Vscp.Spec.AvrSegment

variable {ι : Type} [DecidableEq ι]

/-- Has the main loop of example `i` made a step since its last loss of power? -/
def awake (i : ι) (l : List (Move ι)) : Bool := l.foldl (fun b mv => match mv with
  | .own j .step => if j = i then true else b
  | .own j .power => if j = i then false else b
  | _ => b) false

/-- How often example `i` has lost its power. -/
def losses (i : ι) (l : List (Move ι)) : Nat := l.foldl (fun n mv => match mv with
  | .own j .power => if j = i then n + 1 else n
  | _ => n) 0

/-- Nobody holds a button for 101 ms, something else than the examples neither answers probes under one of the nicknames `f` nor sends events which take nicknames, and the main loop of each
example runs once between two frames of others. -/
structure Unharmed (f : ι → U8) (l : List (Move ι)) : Prop where
  ok : ∀ mv ∈ l, Ok mv
  turn : InTurn (fun _ => 0) l
  harmless : ∀ i, Harmless (f i) l
  button : ∀ i, ¬AvrSys.Held (mine i l)

end Vscp.Spec.AvrSegment
