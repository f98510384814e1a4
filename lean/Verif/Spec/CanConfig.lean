/-
What the frames on the CAN bus make of the settings of a node, in terms of the bits of their identifier and their bytes.
-/
import Verif.Spec.Settings
import Verif.Spec.CanNode

namespace Vscp.Spec
open Vscp.Driver

/-- What a data frame with 29 bit identifier makes of the settings of the node `nick`: bits 16 to 24 of the identifier are the class (0 is that of the
protocol), bits 8 to 15 the type; the first byte is the nickname of the node which is asked. -/
def Settings.frame (c : Cfg) (nick : U8) (s : Settings) (b : CanDrv.BusFrame) : Settings :=
  if b.id / 2 ^ 16 % 512 = 0 then
    match b.data with
    | [] => s
    | n :: l => if n = nick then s.request c (b.id / 2 ^ 8 % 256) l else s
  else s

/-- At every point of the further history `l` the node is active and has the nickname `nick`. -/
def CanNode.Stays (c : Ctx) (cb : Callbacks) (a : CanNode.Around) (nick : U8) (l : List CanNode.Move) (n : CanNode.Node) : Prop :=
  ∀ l1 l2 n1, l = l1 ++ l2 → CanNode.run c cb a l1 n = .ok n1 → n1.w.v.st = .active ∧ n1.w.v.nick = nick

end Vscp.Spec
