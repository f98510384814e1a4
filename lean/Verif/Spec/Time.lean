/-
Specification of the heartbeat of the node, the time since epoch and the alarm status.
-/
import Verif.Spec.States

namespace Vscp.Spec

/-- The node announces that it is alive: the frame of the node heartbeat (class 20, type 9), or the call of the application which sends
its own one. -/
def isHeartbeat : Out → Bool
  | .customHeartbeat => true
  | .tx m _ => decide (m.cls = 20 ∧ m.typ = 9)
  | _ => false

/-- The calls made by one `vscp_core_process`. -/
def madeBy (c : Ctx) (rx : Option Msg) (w : W) : List Out := (stepOp c (.process rx) w).2.out.drop w.out.length

/-- The number of heartbeats sent by one `vscp_core_process`. -/
def beats (c : Ctx) (rx : Option Msg) (w : W) : Nat := (madeBy c rx w).countP isHeartbeat

/-- The number of calls which switch the heartbeat. -/
def switches : List Op → Nat
  | [] => 0
  | .enableHeartbeat _ :: ops => switches ops + 1
  | _ :: ops => switches ops

/-- The event is a segment heartbeat with a CRC. -/
def segBeat (m : Msg) (crc : U8) : Prop := m.cls = 0 ∧ m.typ = 1 ∧ (payload m)[0]? = some crc

/-- The event is a segment heartbeat with the time `t` in its data bytes 1 to 4, the most significant byte first. -/
def segTime (m : Msg) (t : U32) : Prop :=
  m.cls = 0 ∧ m.typ = 1 ∧ ∃ b1 b2 b3 b4 : U8, (payload m)[1]? = some b1 ∧ (payload m)[2]? = some b2 ∧ (payload m)[3]? = some b3 ∧
    (payload m)[4]? = some b4 ∧ t.toNat = ((b1.toNat * 256 + b2.toNat) * 256 + b3.toNat) * 256 + b4.toNat

end Vscp.Spec
