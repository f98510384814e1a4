/-
What a node hears on a CAN bus: an interleaving of what the others send.
-/
import Verif.Spec.Answers

namespace Vscp.Spec.CanSegment
open Vscp.Driver

variable {ι : Type} [DecidableEq ι]

/-- Frames with the node each of them comes from (`none`: from something else): those from `a`, in their order. -/
def sentBy (L : List (Option ι × CanDrv.BusFrame)) (a : Option ι) : List CanDrv.BusFrame := (L.filter (fun x => x.1 = a)).map Prod.snd

/-- The frames which the controller of node `i` sees in a history, and which something else than a node sends. -/
def foreign (i : ι) : List (Move ι) → List CanDrv.BusFrame
  | [] => []
  | .own j (.rx b) :: l => if j = i then b :: foreign i l else foreign i l
  | _ :: l => foreign i l

/-- The framework of node `i` has heard all frames which its controller has stored whenever the controller sees the next frame of another node. -/
def Hears (p : Parts ι) (s : Segment ι) (l : List (Move ι)) (i : ι) : Prop :=
  ∀ pre post s1, l = pre ++ .deliver i :: post → run p pre s = .ok s1 → (s1.node i).x.2.stored.length = (s1.node i).heard.length

/-- The events `ms` are the ones which the frames carry, one by one. -/
def Bears (L : List (Option ι × CanDrv.BusFrame)) (ms : List Msg) : Prop :=
  L.length = ms.length ∧ ∀ (k : Nat) (h : k < L.length) (h' : k < ms.length), CanNode.Carries L[k].2 ms[k]

end Vscp.Spec.CanSegment

namespace Vscp.Spec.AvrSegment
open Vscp.Driver

variable {ι : Type} [DecidableEq ι]

/-- The frames which the controller of example `i` sees in a history, and which something else than an example sends. -/
def foreign (i : ι) : List (Move ι) → List CanDrv.BusFrame
  | [] => []
  | .own j (.rx b) :: l => if j = i then b :: foreign i l else foreign i l
  | _ :: l => foreign i l

end Vscp.Spec.AvrSegment
