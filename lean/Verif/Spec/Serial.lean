/-
Specification of the serial driver: what the application and the line may see.
-/
import Verif.Model.Serial

namespace Vscp.Spec.Serial
open Vscp.Driver.Serial

/-- The receiver is a queue for `cap` bytes, `q` is its content: a byte is stored if, and only if, there is room for it; reading delivers the oldest byte, nothing if and only if
the queue is empty; clearing discards all bytes. -/
def Fifo (cap : Nat) : List U8 → List Rx.Ev → Prop
  | _, [] => True
  | q, .received b true :: t => q.length < cap ∧ Fifo cap (q ++ [b]) t
  | q, .received _ false :: t => q.length = cap ∧ Fifo cap q t
  | q, .got b :: t => ∃ q', q = b :: q' ∧ Fifo cap q' t
  | q, .nothing :: t => q = [] ∧ Fifo cap q t
  | _, .cleared :: t => Fifo cap [] t
  | q, .overflow _ :: t => Fifo cap q t

/-- The bytes which were received and stored, in the order of their reception. -/
def stored (t : List Rx.Ev) : List U8 := t.filterMap fun e => match e with | .received b true => some b | _ => none

/-- The bytes which were read, in this order. -/
def got (t : List Rx.Ev) : List U8 := t.filterMap fun e => match e with | .got b => some b | _ => none

/-- A byte was received and not stored. -/
def lost (t : List Rx.Ev) : Prop := ∃ b, Rx.Ev.received b false ∈ t

/-- The overflow query tells, each time, whether a byte got lost since the last query; `f`: a byte got lost since then. -/
def Reports : Bool → List Rx.Ev → Prop
  | _, [] => True
  | f, .received _ ok :: t => Reports (f || !ok) t
  | f, .overflow x :: t => x = f ∧ Reports false t
  | f, _ :: t => Reports f t

/-- The bytes which went on the line, in this order. -/
def line (t : List Tx.Ev) : List U8 := t.filterMap fun e => match e with | .out b => some b | _ => none

/-- The bytes of the calls of `serialDrv_write` which were taken by the driver, in the order of the calls. -/
def taken (t : List Tx.Ev) : List U8 := t.filterMap fun e => match e with | .returned b _ true => some b | _ => none

/-- The result of `serialDrv_write` is the number of bytes taken. -/
def Truthful (t : List Tx.Ev) : Prop := ∀ b n ok, Tx.Ev.returned b n ok ∈ t → n = if ok then 1 else 0

/-- The bytes of a text which are to be printed: the bytes in front of the first zero, 200 at most. -/
def printed (text : List U8) : List U8 := (text.takeWhile (· ≠ 0)).take 200

end Vscp.Spec.Serial
