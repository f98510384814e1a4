/-
Specification of histories in terms of the calls the framework makes (the trace): what the persistent memory contains
at any time, and what must hold for every call.
-/
import Verif.Model.World

namespace Vscp.Spec

/-- The contents of the persistent memory after the given calls. -/
def memAfter (ps : Nat → U8) : List Out → Nat → U8
  | [] => ps
  | .psW a b :: t => memAfter (fun x => if x = a then b else ps x) t
  | _ :: t => memAfter ps t

/-- `P` holds for every call, together with the contents of the persistent memory just before it. -/
def Always (P : (Nat → U8) → Out → Prop) (ps : Nat → U8) (t : List Out) : Prop :=
  ∀ pre o post, t = pre ++ o :: post → P (memAfter ps pre) o

/-- The write-enable bit (bit 5) of the node control flags. -/
def writeEnable (flags : U8) : Bool := flags.getLsbD 5

/-- The start-up control (bits 6 and 7) of the node control flags is valid: 01 or 10. -/
def validStartUp (flags : U8) : Bool := flags.getLsbD 6 != flags.getLsbD 7

end Vscp.Spec
