/-
Specification of the decision matrix next generation: the rule language of src/vscp_dm_ng.h:42-54 (EBNF) and 108-170, as
an encoder of rules and a meaning of conditions.
-/
import Verif.Spec.Dm

namespace Vscp.Spec.DmNg
open Vscp.Spec

/-- The parameters of an event which can be compared. -/
inductive Par
  | cls | typ | oAddr | hard | prio | zone | subZone | num
  | dataShort (i : Nat)
  | data (i : U8)
deriving DecidableEq

/-- The number of a parameter. -/
def Par.id : Par → Nat
  | .cls => 1
  | .typ => 2
  | .oAddr => 3
  | .hard => 4
  | .prio => 5
  | .zone => 6
  | .subZone => 7
  | .num => 8
  | .dataShort i => 9 + i
  | .data _ => 16

/-- The operators. -/
inductive Rel
  | never | eq | lt | gt | le | ge | mask
deriving DecidableEq

/-- The number of an operator. -/
def Rel.code : Rel → Nat
  | .never => 0
  | .eq => 1
  | .lt => 2
  | .gt => 3
  | .le => 4
  | .ge => 5
  | .mask => 6

/-- The meaning of an operator. -/
def Rel.holds (a b : Nat) : Rel → Prop
  | .never => False
  | .eq => a = b
  | .lt => a < b
  | .gt => b < a
  | .le => a ≤ b
  | .ge => b ≤ a
  | .mask => ∃ i, a.testBit i = true ∧ b.testBit i = true

/-- One condition: compare a parameter of the event with a number. -/
structure Cond where
  rel : Rel
  par : Par
  value : Nat
deriving DecidableEq

/-- What can be written down: class numbers have two bytes, everything else one. -/
def Cond.Ok (x : Cond) : Prop :=
  (if x.par = .cls then x.value < 65536 else x.value < 256) ∧ ∀ i, x.par = .dataShort i → i < 7

/-- Conditions, combined with AND and OR. -/
inductive Chain
  | last (x : Cond)
  | and (x : Cond) (r : Chain)
  | or (x : Cond) (r : Chain)

def Chain.conds : Chain → List Cond
  | .last x => [x]
  | .and x r => x :: r.conds
  | .or x r => x :: r.conds

/-- The bytes of a condition, with the operator to the next one (0: last, 16: and, 32: or). -/
def Cond.bytes (logic : Nat) (x : Cond) : List U8 :=
  [BitVec.ofNat 8 (logic + x.rel.code), BitVec.ofNat 8 x.par.id] ++
    (match x.par with | .data i => [i] | _ => []) ++
    (if x.par = .cls then [BitVec.ofNat 8 (x.value / 256), BitVec.ofNat 8 (x.value % 256)] else [BitVec.ofNat 8 x.value])

def Chain.bytes : Chain → List U8
  | .last x => x.bytes 0
  | .and x r => x.bytes 16 ++ r.bytes
  | .or x r => x.bytes 32 ++ r.bytes

/-- A rule: what to do and when. -/
structure Rule where
  action : U8
  par : U8
  chain : Chain

def Rule.bytes (r : Rule) : List U8 := [BitVec.ofNat 8 (3 + r.chain.bytes.length), r.action, r.par] ++ r.chain.bytes

/-- A rule set: the number of rules and the rules. -/
def ruleSet (l : List Rule) : List U8 := BitVec.ofNat 8 l.length :: l.flatMap Rule.bytes

/-- The zone (`k = 0`) or sub-zone (`k = 1`) of an event, 255 without. -/
noncomputable def zoneValue (m : Msg) (data : List U8) (k : Nat) : Nat :=
  open Classical in
  if ZoneInByte0 m.cls.toNat m.typ.toNat then (data[k]?.getD 255).toNat
  else if ZoneInByte1 m.cls.toNat m.typ.toNat then (data[k + 1]?.getD 255).toNat
  else 255

/-- The value of a parameter.  A missing data byte is zero.  `data` are the bytes the zones are taken from. -/
noncomputable def Par.value (m : Msg) (data : List U8) : Par → Nat
  | .cls => m.cls.toNat
  | .typ => m.typ.toNat
  | .oAddr => m.oAddr.toNat
  | .hard => if m.hard then 1 else 0
  | .prio => m.prio.toNat
  | .zone => zoneValue m data 0
  | .subZone => zoneValue m data 1
  | .num => m.size.toNat
  | .dataShort i => ((payload m)[i]?.getD 0).toNat
  | .data i => ((payload m)[i.toNat]?.getD 0).toNat

def Cond.Holds (m : Msg) (data : List U8) (x : Cond) : Prop := x.rel.holds (x.par.value m data) x.value

/-- The first condition is combined with the result of the others. -/
def Chain.HoldsRight (m : Msg) (data : List U8) : Chain → Prop
  | .last x => x.Holds m data
  | .and x r => x.Holds m data ∧ r.HoldsRight m data
  | .or x r => x.Holds m data ∨ r.HoldsRight m data

/-- From left to right: the result so far is combined with the next condition; `f` combines with the result so far. -/
def Chain.HoldsLeft (m : Msg) (data : List U8) (f : Prop → Prop) : Chain → Prop
  | .last x => f (x.Holds m data)
  | .and x r => r.HoldsLeft m data (fun p => f (x.Holds m data) ∧ p)
  | .or x r => r.HoldsLeft m data (fun p => f (x.Holds m data) ∨ p)

/-- Only AND. -/
def Chain.AllAnd : Chain → Prop
  | .last _ => True
  | .and _ r => r.AllAnd
  | .or _ _ => False

/-- Only OR. -/
def Chain.AllOr : Chain → Prop
  | .last _ => True
  | .and _ _ => False
  | .or _ r => r.AllOr

/-- Conditions which do not mix AND and OR. -/
def Chain.Plain (x : Chain) : Prop := x.AllAnd ∨ x.AllOr

open Classical in
/-- The calls of the application for an event. -/
noncomputable def calls (holds : Chain → Prop) (l : List Rule) (m : Msg) : List Out :=
  l.filterMap fun r => if r.action ≠ 0 ∧ holds r.chain then some (.action r.action r.par m) else none

/-- The event carries the zones it should have. -/
structure Complete (m : Msg) : Prop where
  byte0 : ZoneInByte0 m.cls.toNat m.typ.toNat → 2 ≤ m.size.toNat
  byte1 : ZoneInByte1 m.cls.toNat m.typ.toNat → 3 ≤ m.size.toNat

end Vscp.Spec.DmNg
