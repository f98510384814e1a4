/-
Why an AVR example gives up its nickname.
-/
import Verif.Spec.AvrSys
import Verif.Spec.Network
import Verif.Spec.Wear

namespace Vscp.Spec.AvrSys
open Vscp.Avr.Sys

/-- The event takes the nickname from the node: another node answers under it; it gets another one; it shall drop it; the last part of a drop of the nickname by the GUID;
or a write of registers of the node by which the factory settings are restored. -/
def Dismissed (w w' : W) (m : Msg) : Prop :=
  m.cls = 0 ∧
  ((m.typ = 3 ∧ payload m = [] ∧ m.oAddr = w.v.nick) ∨
   (m.typ = 6 ∧ ∃ v, payload m = [w.v.nick, v] ∧ v ≠ 0 ∧ v ≠ w.v.nick ∧ uses w' v) ∨
   (m.typ = 8 ∧ (payload m)[0]? = some w.v.nick ∧ (payload m).length ≤ 3) ∨
   (m.typ = 23 ∧ (payload m)[0]? = some 3) ∨
   (m.typ ∈ ([11, 25, 29, 30, 38] : List U8) ∧ (payload m)[0]? = some w.v.nick ∧ factoryReset w w'))

/-- A reason to give up the nickname: the power fails; the button was held for the last 101 ms; or an event. -/
def Reason (l : List Avr.Sys.Move) (mv : Avr.Sys.Move) (y y' : Avr.Sys.State) : Prop :=
  mv = .power ∨
  (mv = .step ∧ (∃ p, button l = p ++ List.replicate 101 true) ∧ y'.fw.w.v.st = .init) ∨
  (mv = .step ∧ ∃ m, y'.heard = y.heard ++ [m] ∧ Dismissed y.fw.w y'.fw.w m)

end Vscp.Spec.AvrSys
