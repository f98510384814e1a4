/-
A segment of AVR examples which nobody disturbs.
-/
import Verif.Spec.AvrStable

namespace Vscp.Spec.AvrSegment

/-- All have power, nobody holds a button for 101 ms, something else than the examples neither answers probes under one of the nicknames `f` nor sends events which take nicknames, and the main loop of each
example runs once between two frames of others. -/
structure Undisturbed {ι : Type} [DecidableEq ι] (f : ι → U8) (l : List (Move ι)) : Prop where
  ok : ∀ mv ∈ l, Ok mv
  turn : InTurn (fun _ => 0) l
  harmless : ∀ i, Harmless (f i) l
  power : ∀ i, .own i .power ∉ l
  button : ∀ i, ¬AvrSys.Held (mine i l)

end Vscp.Spec.AvrSegment
