/-
What is expected of a node on the CAN bus: frames on the bus are its events.
-/
import Verif.Model.CanNode
import Verif.Spec.CanDrv
import Verif.Spec.Driver
import Verif.Spec.Registers

namespace Vscp.Spec.CanNode
open Vscp.Driver

/-- The frame which carries an event: a data frame with 29 bit identifier. -/
def frameOf (m : Msg) : CanDrv.BusFrame := ⟨true, false, Drv.canId m, m.size, payload m⟩

/-- The events of a trace which the adapter took. -/
def taken (t : List Out) : List Msg := t.filterMap fun o => match o with | .tx m true => some m | _ => none

/-- The event `m` is what the frame carries.  (A remote frame has no bytes.) -/
def Carries (b : CanDrv.BusFrame) (m : Msg) : Prop :=
  Drv.canId m = b.id ∧ m.prio.toNat < 8 ∧ m.cls.toNat < 512 ∧ m.size = b.dlc ∧ (b.rtr = false → payload m = b.data)

/-- The moves of an operating node: the application calls anything but `vscp_core_init` and `vscp_core_process`, the bus carries valid frames. -/
def Ok : CanNode.Move → Prop
  | .call op => op.inCallback ∨ ∃ ms, op = .tick ms
  | .rx b => Spec.CanDrv.Valid b
  | _ => True

/-- A protocol event of type `typ` from node `origin` as a frame on the bus; `hard`: the node cannot change its nickname. -/
def protocol (prio : U8) (hard : Bool) (typ origin : U8) (data : List U8) : CanDrv.BusFrame :=
  ⟨true, false, prio.toNat * 2 ^ 26 + hard.toNat * 2 ^ 25 + typ.toNat * 2 ^ 8 + origin.toNat, BitVec.ofNat 8 data.length, data⟩

/-- The frames other nodes send in a history. -/
def offered : List CanNode.Move → List CanDrv.BusFrame
  | [] => []
  | .rx b :: l => b :: offered l
  | _ :: l => offered l

/-- Between two frames of other nodes there is at least one cycle; `unread`: a frame has come since the last cycle. -/
def Paced : Bool → List CanNode.Move → Prop
  | _, [] => True
  | unread, .rx _ :: l => unread = false ∧ Paced true l
  | _, .cycle :: l => Paced false l
  | unread, _ :: l => Paced unread l

/-- The calls of the framework in a history, if its cycles get `rs` from the adapter. -/
def callsOf : List CanNode.Move → List (Option Msg) → List Op
  | [], _ => []
  | .cycle :: l, rs => .process (rs.headD none) :: callsOf l rs.tail
  | .call op :: l, rs => op :: callsOf l rs
  | .rx _ :: l, rs => callsOf l rs
  | .tx :: l, rs => callsOf l rs

/-- The number of cycles of a history. -/
def cyclesOf : List CanNode.Move → Nat
  | [] => 0
  | .cycle :: l => cyclesOf l + 1
  | _ :: l => cyclesOf l

end Vscp.Spec.CanNode
