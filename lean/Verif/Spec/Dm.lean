/-
Specification of the decision matrix, from the VSCP specification (level I decision matrix) and src/vscp_dm.h:76-160: what
the eight bytes of a row mean.
-/
import Verif.Model.World
import Verif.Spec.Registers
import Verif.Spec.Util

namespace Vscp.Spec.Dm
open Vscp.Spec

/-- Filter and mask select numbers bit by bit; with an empty mask everything is selected.  `n` bits are compared. -/
def Selected (n : Nat) (mask filter value : Nat → Bool) : Prop :=
  (∀ i, i < n → mask i = false) ∨ ∀ i, i < n → filter i = (mask i && value i)

/-- A nine bit number out of eight bits and the most significant one. -/
def bits9 (b : U8) (msb : Bool) (i : Nat) : Bool := if i = 8 then msb else b.getLsbD i

/-- The zone (`k = 0`) or sub-zone (`k = 1`) of an event with the given data bytes. -/
def ZoneByte (m : Msg) (data : List U8) (k : Nat) (z : U8) : Prop :=
  (ZoneInByte0 m.cls.toNat m.typ.toNat ∧ data[k]? = some z) ∨ (ZoneInByte1 m.cls.toNat m.typ.toNat ∧ data[k + 1]? = some z)

/-- A zone of the event (255: all zones) matches the wanted zone. -/
def InZone (m : Msg) (data : List U8) (k : Nat) (wanted : U8) : Prop :=
  ∃ z, ZoneByte m data k z ∧ (z = 0xFF ∨ z = wanted)

/-- The extension row is used: extension configured and action 255. -/
abbrev extended (ext : Bool) (row : Nat → U8) : Prop := ext = true ∧ row 6 = 0xFF

/-- A row fires for an event.  The bytes of a row are: origin address, flags, class mask, class filter, type mask, type
filter, action, action parameter; those of an extension row: zone, sub-zone, data bytes 0, 3, 4 and 5, action, action parameter.
Flags: 7 enabled, 6 origin address, 5 hard coded, 4 zone, 3 sub-zone, 1 and 0 bit 8 of class mask and filter.  `data` are the bytes
the zones are taken from, `zone` and `subZone` are those of the node. -/
structure Fires (ext : Bool) (zone subZone : U8) (row extRow : Nat → U8) (m : Msg) (data : List U8) : Prop where
  enabled : (row 1).getLsbD 7 = true
  action : row 6 ≠ 0
  origin : (row 1).getLsbD 6 = true → m.oAddr = row 0
  hard : (row 1).getLsbD 5 = true → m.hard = true
  zone : (row 1).getLsbD 4 = true → InZone m data 0 (if extended ext row then extRow 0 else zone)
  subZone : (row 1).getLsbD 3 = true → InZone m data 1 (if extended ext row then extRow 1 else subZone)
  cls : Selected 9 (bits9 (row 2) ((row 1).getLsbD 1)) (bits9 (row 3) ((row 1).getLsbD 0)) m.cls.getLsbD
  typ : Selected 8 (row 4).getLsbD (row 5).getLsbD m.typ.getLsbD
  par0 : extended ext row → (row 7).getLsbD 0 = true → (payload m)[0]? = some (extRow 2)
  par3 : extended ext row → (row 7).getLsbD 1 = true → (payload m)[3]? = some (extRow 3)
  par4 : extended ext row → (row 7).getLsbD 2 = true → (payload m)[4]? = some (extRow 4)
  par5 : extended ext row → (row 7).getLsbD 3 = true → (payload m)[5]? = some (extRow 5)

/-- The call of the application for a row which fires. -/
def call (ext : Bool) (row extRow : Nat → U8) (m : Msg) : Out :=
  if extended ext row then .action (extRow 6) (extRow 7) m else .action (row 6) (row 7) m

/-- Where the bytes of a matrix are stored, and the zone of the node. -/
structure Matrix where
  rows : Nat
  ext : Bool
  zone : U8
  subZone : U8
  row : Nat → Nat → U8
  extRow : Nat → Nat → U8

/-- The calls for an event: those of the rows which fire, in ascending order of the rows. -/
noncomputable def calls (x : Matrix) (m : Msg) (data : List U8) : List Out :=
  (List.range x.rows).filterMap fun i =>
    open Classical in
    if Fires x.ext x.zone x.subZone (x.row i) (x.extRow i) m data then some (call x.ext (x.row i) (x.extRow i) m) else none

/-- The actions in a trace. -/
def actions (t : List Out) : List Out := t.filter fun o => match o with | .action .. => true | _ => false

/-- The event carries the zone bytes a row asks for. -/
structure Complete (row : Nat → U8) (m : Msg) : Prop where
  zone0 : (row 1).getLsbD 4 = true → ZoneInByte0 m.cls.toNat m.typ.toNat → 1 ≤ m.size.toNat
  zone1 : (row 1).getLsbD 4 = true → ZoneInByte1 m.cls.toNat m.typ.toNat → 2 ≤ m.size.toNat
  sub0 : (row 1).getLsbD 3 = true → ZoneInByte0 m.cls.toNat m.typ.toNat → 2 ≤ m.size.toNat
  sub1 : (row 1).getLsbD 3 = true → ZoneInByte1 m.cls.toNat m.typ.toNat → 3 ≤ m.size.toNat

end Vscp.Spec.Dm
