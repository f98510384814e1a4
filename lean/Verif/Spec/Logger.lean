/-
Specification of the logger: src/vscp_logger.h and the CLASS1.LOG events.
-/
import Verif.Model.World

namespace Vscp.Spec.Log

/-- The number of frames for a log message of `n` bytes. -/
def count (n : Nat) : Nat := if n = 0 then 1 else (n + 4) / 5

/-- Frame `k` of a log message: class 509, type 1, normal priority; log id, level, index and five bytes of the message. -/
def logFrame (nick : U8) (hard : Bool) (id level : U8) (msg : List U8) (k : Nat) : Msg :=
  ⟨3, 509, 1, nick, hard, 8, bytes8 ([id, level, BitVec.ofNat 8 k] ++ (msg.drop (5 * k)).take 5)⟩

/-- All frames of a log message. -/
def logFrames (nick : U8) (hard : Bool) (id level : U8) (msg : List U8) : List Msg :=
  (List.range (count msg.length)).map (logFrame nick hard id level msg)

/-- The transmission of frames up to the first failure; `ok i` tells whether transmission `i` succeeds. -/
def transmitAll (ok : Nat → Bool) : Nat → List Msg → List Out
  | _, [] => []
  | i, m :: ms => .tx m (ok i) :: if ok i then transmitAll ok (i + 1) ms else []

/-- What a log control event does with the settings of the logger: start (2), stop (3) for the log id of the node, level (4). -/
def control (logId : U8) (m : Msg) (l : LoggerVars) : LoggerVars :=
  if m.cls = 509 ∧ m.size = 1 then
    if m.typ = 2 ∧ m.data[0] = logId then { l with on := true }
    else if m.typ = 3 ∧ m.data[0] = logId then { l with on := false }
    else if m.typ = 4 then { l with level := m.data[0] }
    else l
  else l

end Vscp.Spec.Log
