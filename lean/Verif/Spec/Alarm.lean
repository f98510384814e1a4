/-
Specification of the alarm status register (C41).
-/
import Verif.Spec.States

namespace Vscp.Spec

/-- The frame reports the value `a` of the alarm status, register 0x80 of page 0: it is the response to a register read, it is
a response to a page read which contains the value (these do not name their registers, see C22), or it is a response to an
extended page read whose first register is `b`. -/
def reportsAlarm (m : Msg) (a : U8) : Prop :=
  m.cls = 0 ∧
  ((m.typ = 10 ∧ payload m = [0x80, a]) ∨
   (m.typ = 26 ∧ a ∈ (payload m).drop 1) ∨
   (m.typ = 39 ∧ (payload m)[1]? = some 0 ∧ (payload m)[2]? = some 0 ∧
      ∃ (b : U8) (k : Nat), (payload m)[3]? = some b ∧ b.toNat + k = 0x80 ∧ (payload m)[4 + k]? = some a))

/-- The event asks the node to increment or to decrement its alarm status. -/
def stepsAlarm (m : Msg) (nick : U8) : Prop := m.cls = 0 ∧ (m.typ = 29 ∨ m.typ = 30) ∧ payload m = [nick, 0x80]

/-- Factory settings were restored: the application was told to restore its own ones. -/
def restored (t : List Out) : Prop := .appRestore ∈ t

/-- A frame which reports an alarm status with bit `i` set was handed to the transport adapter. -/
def reported (t : List Out) (i : Nat) : Prop := ∃ m ok a, .tx m ok ∈ t ∧ reportsAlarm m a ∧ a.getLsbD i = true

end Vscp.Spec
