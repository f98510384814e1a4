/-
A node which asks the segment master for a nickname.
-/
import Verif.Spec.Discovery
import Verif.Spec.Registers

namespace Vscp.Spec.Master

/-- What a call is for a waiting node: a cycle with the event taken in it, the passing of time, or neither. -/
inductive Seen
  | cycle (e : Option Msg)
  | time (ms : Nat)
  | other

/-- What the calls of a history which starts in the state `w` are for the node. -/
def seen (c : Ctx) : W → List Op → List Seen
  | _, [] => []
  | w, .process rx :: ops => .cycle (Transport.readMessage c rx w).1 :: seen c (stepOp c (.process rx) w).2 ops
  | w, .tick ms :: ops => .time ms :: seen c (stepOp c (.tick ms) w).2 ops
  | w, op :: ops => .other :: seen c (stepOp c op w).2 ops

/-- The nickname which the segment master (nickname 0) assigns to a node without one (0xFF): class 0, type 6, with the nickname of the node
and the new one. -/
def assigns (m : Msg) : Option U8 :=
  if m.cls = 0 ∧ m.typ = 6 ∧ m.oAddr = 0 ∧ 2 ≤ m.size.toNat ∧ m.data[0] = 0xFF then some m.data[1] else none

/-- The events the segment master sends to set a nickname have both bytes. -/
def complete (m : Msg) : Prop := m.cls = 0 ∧ m.typ = 6 ∧ m.oAddr = 0 → 2 ≤ m.size.toNat

/-- How a node fares which asked the segment master. -/
inductive Fate
  /-- It waits for `left` milliseconds more; the segment master has answered or not. -/
  | waits (answered : Bool) (left : Nat)
  /-- It gave up on the segment master; `rest` calls follow. -/
  | alone (rest : Nat)
  /-- The segment master assigned `q`; `rest` calls follow. -/
  | assigned (q : U8) (rest : Nat)
deriving DecidableEq

instance (m : Msg) (q : U8) : Decidable (ackFrom m q) := inferInstanceAs (Decidable (_ ∧ _))

/-- The fate of a node with `left` milliseconds to wait.  First the segment master has to answer the probe; then it may assign a nickname.  The
time is counted from the probe on for both. -/
def fate (answered : Bool) (left : Nat) : List Seen → Fate
  | [] => .waits answered left
  | .other :: l => fate answered left l
  | .time ms :: l => fate answered (left - ms) l
  | .cycle e :: l =>
    if left = 0 then .alone l.length
    else if answered then
      match e.bind assigns with
      | some q => .assigned q l.length
      | none => fate true left l
    else fate (e.any fun m => decide (ackFrom m 0)) left l

/-- The node waits for the segment master: for the answer to its probe, or, having it, for a nickname. -/
def Waiting (answered : Bool) (left : Nat) (w : W) : Prop :=
  (if answered then w.v.st = .preActive else w.v.st = .init ∧ w.v.ist = .probeMasterWait) ∧ w.tm.ok .main = true ∧ (w.tm.rem .main).toNat = left

/-- The node looks for a nickname by itself, beginning with the first one of the configuration. -/
def OnItsOwn (c : Ctx) (w : W) : Prop := w.v.st = .init ∧ w.v.ist = .probe ∧ w.v.probe = c.startProbe

/-- The node took the nickname `q` in the call which leads from `w` to `w'`: it is active, has the nickname and stored it, and what it did was to
store it, to accept it (type 7), to switch on the lamp and to announce itself (type 2), in this order. -/
def Took (c : Ctx) (q : U8) (w w' : W) : Prop :=
  w'.v.st = .active ∧ w'.v.nick = q ∧ w'.ps (Ps.addrNickname c) = q ∧
  ∃ b1 b2, w'.out = w.out ++ [.psW (Ps.addrNickname c) q, .tx (event c q 7 7 []) b1, .lamp .on, .tx (event c q 0 2 [q]) b2]

end Vscp.Spec.Master
