/-
Specifications for src/vscp_util.c: zone position of events and a bounded FIFO queue.
-/
import Verif.Model.Basic

namespace Vscp.Spec

/-- Classes (VSCP specification, class level I) of which every event (type > 0) carries index,
zone, sub-zone in bytes 0, 1, 2. -/
def zoneClasses : List Nat := [1, 2, 50, 65, 85, 90, 95, 506, 508]

/-- Events with the zone in byte 0: CLASS1.INFORMATION stream data with zone (38), confirm (39). -/
def ZoneInByte0 (cls typ : Nat) : Prop := cls = 20 ∧ (typ = 38 ∨ typ = 39)

/-- Events with the zone in byte 1. -/
def ZoneInByte1 (cls typ : Nat) : Prop :=
  0 < typ ∧
  (cls ∈ zoneClasses ∨
   (cls = 20 ∧ typ ≠ 36 ∧ typ ≠ 38 ∧ typ ≠ 39) ∨
   (cls = 30 ∧ ¬ (16 < typ ∧ typ < 20) ∧ typ ≠ 25) ∨
   (cls = 100 ∧ typ = 4) ∨
   (cls = 102 ∧ typ ≠ 6) ∨
   (cls = 110 ∧ (typ = 48 ∨ typ = 49)))

/-! A bounded FIFO queue. -/

/-- Operations on a queue of elements of type `β`. -/
inductive QOp (β : Type) where
  | put (e : β)
  | get

/-- Results: was the element accepted / the element taken out, if any. -/
inductive QOut (β : Type) where
  | accepted (ok : Bool)
  | taken (e : Option β)

/-- One operation on a FIFO queue with room for `cap` elements. -/
def qStep {β : Type} (cap : Nat) (q : List β) : QOp β → List β × QOut β
  | .put e => if q.length < cap then (q ++ [e], .accepted true) else (q, .accepted false)
  | .get => match q with
    | [] => ([], .taken none)
    | e :: q => (q, .taken (some e))

/-- A sequence of operations. -/
def qRun {β : Type} (cap : Nat) : List β → List (QOp β) → List β × List (QOut β)
  | q, [] => (q, [])
  | q, op :: ops =>
    let (q1, o) := qStep cap q op
    let (q2, os) := qRun cap q1 ops
    (q2, o :: os)

end Vscp.Spec
