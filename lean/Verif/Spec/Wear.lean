/-
Specification of the writes to the persistent memory: what asks a node to store something, and where.
-/
import Verif.Spec.States

namespace Vscp.Spec

/-- The bytes written to the persistent memory by some calls, in order. -/
def storedIn (t : List Out) : List (Nat × U8) := t.filterMap fun o => match o with
  | .psW a b => some (a, b)
  | _ => none

/-- The bytes written to the persistent memory between two states, in order. -/
def stored (w w' : W) : List (Nat × U8) := storedIn (w'.out.drop w.out.length)

/-- Between the two states the factory settings were restored. -/
def factoryReset (w w' : W) : Prop := .portRestore ∈ w'.out.drop w.out.length

/-- The protocol event asks the node to store something: a segment heartbeat with another CRC; a probe acknowledge from a node with the same
nickname; a new nickname; a drop of the nickname; a write, page write, extended page write, increment or decrement of registers of the node; the start of the boot loader;
the last part of a GUID drop. -/
def Asks (c : Ctx) (w : W) (m : Msg) : Prop :=
  (m.typ = 1 ∧ c.hbSegment = true ∧ 0 < m.size.toNat ∧ (payload m)[0]? ≠ some (w.ps (Ps.addrSegCrc c))) ∨
  (m.typ = 3 ∧ m.oAddr = w.v.nick ∧ m.size = 0) ∨
  (m.typ ∈ ([6, 8, 11, 12, 25, 29, 30, 38] : List U8) ∧ (payload m)[0]? = some w.v.nick) ∨
  (m.typ = 23 ∧ (payload m)[0]? = some 3)

instance (c : Ctx) (w : W) (m : Msg) : Decidable (Asks c w m) := by unfold Asks; infer_instance

/-- Where an event of the given type can store something, other than the factory settings. -/
def target (c : Ctx) (typ : U8) (a : Nat) : Prop :=
  if typ = 1 then a = Ps.addrNickname c ∨ a = Ps.addrSegCrc c
  else if typ ∈ ([3, 6, 8, 23] : List U8) then a = Ps.addrNickname c
  else if typ = 12 then a = Ps.addrBootFlag c
  else if typ ∈ ([11, 25, 29, 30, 38] : List U8) then
    a = Ps.addrFlags c ∨ (Ps.addrUserId c ≤ a ∧ a < Ps.addrUserId c + 5) ∨ (c.zonePs = true ∧ a = Ps.addrZone c) ∨
    (c.subZonePs = true ∧ a = Ps.addrSubZone c) ∨ (Ps.addrDm c ≤ a ∧ a < Ps.addrDm c + Ps.sizeDm c) ∨
    (Ps.addrDmNg c ≤ a ∧ a < Ps.addrDmNg c + Ps.sizeDmNg c)
  else False

/-- Calls which do not ask the node to store something. -/
def harmless : Op → Prop
  | .init _ | .startNodeSegmentInit | .restore => False
  | _ => True

/-- A history of an active node in which nothing asks it to store something. -/
def Undemanding (c : Ctx) : List Op → W → Prop
  | [], _ => True
  | op :: ops, w => harmless op ∧ (∀ rx m, op = .process rx → Takes c rx w m → m.cls = 0 → ¬ Asks c w m) ∧
      Undemanding c ops (stepOp c op w).2

end Vscp.Spec
