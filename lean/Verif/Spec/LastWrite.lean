/-
Specification of registers as a memory: what the events a node receives write to one of its registers.
-/
import Verif.Spec.Wear
import Verif.Model.Callout

namespace Vscp.Spec

/-- Registers of page 0 which only keep what is written to them: the node control flags and the user id. -/
def plain (a : U8) : Prop := 0x83 ≤ a.toNat ∧ a.toNat ≤ 0x88

instance (a : U8) : Decidable (plain a) := by unfold plain; infer_instance

/-- The factory setting of such a register: start-up control "init", write protection off; user id 0. -/
def factory (a : U8) : U8 := if a = 0x83 then 0xA0 else 0

/-- The value a protocol event writes to the register `a` of page 0 of the node `nick`: write register, page write (to the selected
page), increment and decrement register (`cur` is the value before), extended page write. -/
def written (nick : U8) (page : U16) (cur : U8) (m : Msg) (a : U8) : Option U8 :=
  let l := payload m
  if l[0]? ≠ some nick then none
  else if m.typ = 11 then (if l.length = 3 ∧ l[1]? = some a then l[2]? else none)
  else if m.typ = 25 then
    match l[1]? with
    | some r => if page = 0 ∧ r.toNat ≤ a.toNat then l[2 + (a.toNat - r.toNat)]? else none
    | none => none
  else if m.typ = 29 then (if l = [nick, a] then some (cur + 1) else none)
  else if m.typ = 30 then (if l = [nick, a] then some (cur - 1) else none)
  else if m.typ = 38 then
    match l[3]? with
    | some r => if l[1]? = some 0 ∧ l[2]? = some 0 ∧ r.toNat ≤ a.toNat then l[4 + (a.toNat - r.toNat)]? else none
    | none => none
  else none

instance (c : Ctx) (rx : Option Msg) (w : W) (m : Msg) : Decidable (Takes c rx w m) := by unfold Takes; infer_instance

instance (w w' : W) : Decidable (factoryReset w w') := by unfold factoryReset; infer_instance

/-- The value of a register after a cycle, if it was `cur` before. -/
def afterCycle (c : Ctx) (rx : Option Msg) (w : W) (a cur : U8) : U8 :=
  match (Transport.readMessage c rx w).1 with
  | some m => if Takes c rx w m ∧ m.cls = 0 then (written w.v.nick w.v.page cur m a).getD cur else cur
  | none => cur

/-- The value of a register after an operation in which the factory settings are not restored, if it was `cur` before: only cycles write it. -/
def afterOp (c : Ctx) (w : W) (a cur : U8) : Op → U8
  | .process rx => afterCycle c rx w a cur
  | _ => cur

/-- The value of a register after a history, if it was `cur` before: its factory setting, if the factory settings were restored last; else what was
written to it last. -/
def lastWrite (c : Ctx) (a : U8) : List Op → W → U8 → U8
  | [], _, cur => cur
  | op :: ops, w, cur => lastWrite c a ops (stepOp c op w).2
      (if factoryReset w (stepOp c op w).2 then factory a else afterOp c w a cur op)

/-- No event taken by the node is longer than 8 bytes. -/
def Short (c : Ctx) : List Op → W → Prop
  | [], _ => True
  | op :: ops, w => (∀ rx m, op = .process rx → Takes c rx w m → m.size.toNat ≤ 8) ∧ Short c ops (stepOp c op w).2

/-- As `lastWrite`, for an application which calls the framework in its callbacks. -/
def lastWriteC (c : Ctx) (cb : Callbacks) (a : U8) : List Op → W → U8 → U8
  | [], _, cur => cur
  | op :: ops, w, cur => lastWriteC c cb a ops (stepOpC c cb op w).2
      (if factoryReset w (stepOpC c cb op w).2 then factory a else afterOp c w a cur op)

end Vscp.Spec
