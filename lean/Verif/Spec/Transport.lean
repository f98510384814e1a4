/-
Specification of the transport layer: what a user of `vscp_transport` observes.
-/
import Verif.Model.World
import Verif.Spec.Util

namespace Vscp.Spec

/-- Calls of the transport interface.  `rx`: what the adapter has for us when it is asked. -/
inductive TOp
  | read (rx : Option Msg)
  | write (m : Msg)
  | getErrors

/-- What the caller sees. -/
inductive TOut
  | got (m : Option Msg)
  | sent (ok : Bool)
  | errors (n : U8)

/-- Own events which are candidates for the loopback: at most 8 data bytes, neither class 0 (protocol) nor class 509 (log). -/
def LoopbackCandidate (m : Msg) : Prop := m.size.toNat ≤ 8 ∧ m.cls ≠ 0 ∧ m.cls ≠ 509

instance (m : Msg) : Decidable (LoopbackCandidate m) := by unfold LoopbackCandidate; infer_instance

/-- The received events of a history, in order of arrival. -/
def received : List TOp → List Msg
  | [] => []
  | .read (some m) :: ops => m :: received ops
  | _ :: ops => received ops

/-- The events returned by the reads, in order. -/
def returned : List TOut → List Msg
  | [] => []
  | .got (some m) :: os => m :: returned os
  | _ :: os => returned os

/-- The events which enter the queue, in order; `true` marks the received ones.  `k` is the number
of events entered and not yet returned.  A received event always enters; an own event enters if it is a candidate
and less than `cap` events wait. -/
def entering (cap : Nat) : Nat → List TOp → List (Bool × Msg)
  | _, [] => []
  | k, .read rx :: ops =>
    match rx with
    | some m => (true, m) :: entering cap (k + 1 - 1) ops
    | none => entering cap (k - 1) ops
  | k, .write m :: ops =>
    if LoopbackCandidate m ∧ k < cap then (false, m) :: entering cap (k + 1) ops
    else entering cap k ops
  | k, .getErrors :: ops => entering cap k ops

/-- `n` failed transmissions since the last report: every report is exact, up to saturation at 255. -/
def ErrorsExact : Nat → List TOut → Prop
  | _, [] => True
  | n, .sent ok :: os => ErrorsExact (if ok then n else n + 1) os
  | n, .errors e :: os => e.toNat = min n 255 ∧ ErrorsExact 0 os
  | n, .got _ :: os => ErrorsExact n os

end Vscp.Spec
