/-
Specification of a loss of power in the middle of a call: the persistent memory keeps the bytes written before, and nothing else of the node survives.
-/
import Verif.Spec.Settings
import Verif.Spec.Wear

namespace Vscp.Spec

/-- The persistent memory when the power is lost between two states, after the first `k` calls of the framework to its environment (a byte written to the
memory is one such call).  If `k` is not smaller than their number, the power is lost at the end. -/
def lossMem (w w' : W) (k : Nat) : Nat → U8 := memAfter w.ps ((w'.out.drop w.out.length).take k)

/-- The settings a node finds in the memory when it is switched on. -/
def kept (c : Cfg) (ps : Nat → U8) : Settings := settings c (powerUp ps)

namespace Settings

/-- Without the selected page, which is not stored. -/
def saved (s : Settings) : Settings := { s with page := 0 }

/-- What a protocol event makes of the settings of the node `nick` if the power is lost before it is dealt with.  A page write may be cut short to its
first data bytes; the other events are dealt with, or not. -/
def Part (c : Cfg) (nick : U8) (m : Msg) (s x : Settings) : Prop :=
  if m.typ.toNat = 25 ∨ m.typ.toNat = 38 then
    ∃ j, x = match (payload m).take j with
      | [] => s
      | n :: l => if n = nick then s.request c m.typ.toNat l else s
  else x = s ∨ x = s.event c nick m

/-- The settings after an operation in which the power is lost: if the node takes an event, what was dealt with of it; otherwise those before. -/
def Partly (c : Ctx) (w : W) (s : Settings) (op : Op) (x : Settings) : Prop :=
  match op with
  | .process rx =>
    match (Transport.readMessage c rx w).1 with
    | some m => if Takes c rx w m ∧ m.cls = 0 then s.Part c w.v.nick m x else x = s
    | none => x = s
  | _ => x = s

/-- In the middle of a restore of the factory settings: every byte is still the old one or that of the factory settings. -/
def Between (c : Cfg) (s x : Settings) : Prop :=
  (x.flags = s.flags ∨ x.flags = (s.factory c).flags) ∧ (∀ i, x.user i = s.user i ∨ x.user i = (s.factory c).user i) ∧
  (∀ i, x.dm i = s.dm i ∨ x.dm i = (s.factory c).dm i) ∧ (∀ i, x.ng i = s.ng i ∨ x.ng i = (s.factory c).ng i) ∧ x.page = 0

end Settings

end Vscp.Spec
