/-
Model of src/vscp_dm_ng.c (decision matrix next generation).

The error information for debugging (`vscp_dm_ng_getError`) is in Model/DmNgDebug.lean.
-/
import Verif.Model.DevData

namespace Vscp
namespace DmNg
open M

/-- src/vscp_dm_ng.c:72 `VSCP_DM_NG_RULE_MAX_SIZE` -/
def RULE_MAX_SIZE : Nat := 40

/-- src/vscp_dm_ng.c:78, 81 `VSCP_DM_NG_PAGES`, `VSCP_DM_NG_LAST_PAGE` -/
def lastPage (c : Cfg) : Nat := c.ngPage + c.ngSize / 256

/-- src/vscp_dm_ng.c:84 `VSCP_DM_NG_LAST_PAGE_OFFSET` -/
def lastPageOffset (c : Cfg) : Nat := if 0 < c.ngSize % 256 then c.ngSize % 256 - 1 else 255

/-- src/vscp_dm_ng.c:201-212 `vscp_dm_ng_restoreFactoryDefaultSettings` -/
def restore (c : Cfg) : M Unit := forUp (fun i => Ps.writeDmNg c i 0) c.ngSize

/-- src/vscp_dm_ng.c:224-253 `vscp_dm_ng_isDecisionMatrix` -/
def isDecisionMatrix (c : Cfg) (page : U16) (addr : U8) : Bool :=
  if 0 < c.ngSize then
    if c.ngPage ≤ page.toNat ∧ page.toNat ≤ lastPage c then
      if page.toNat = lastPage c then decide (addr.toNat ≤ lastPageOffset c)
      else true
    else false
  else false

/-- `uint8_t index = (page - VSCP_DM_NG_START_PAGE) * 256 + addr;` -/
def regIndex (c : Cfg) (page : U16) (addr : U8) : U8 :=
  BitVec.ofNat 8 ((page.toNat - c.ngPage) * 256 + addr.toNat)

/-- src/vscp_dm_ng.c:262-275 `vscp_dm_ng_readRegister` -/
def readRegister (c : Cfg) (page : U16) (addr : U8) : M U8 :=
  if c.ngPage ≤ page.toNat then Ps.readDmNg c (regIndex c page addr).toNat else pure 0

/-- src/vscp_dm_ng.c:285-300 `vscp_dm_ng_writeRegister` -/
def writeRegister (c : Cfg) (page : U16) (addr : U8) (v : U8) : M U8 :=
  if c.ngPage ≤ page.toNat then do
    Ps.writeDmNg c (regIndex c page addr).toNat v
    Ps.readDmNg c (regIndex c page addr).toNat
  else pure v

/-- src/vscp_dm_ng.c:686-701 `vscp_dm_ng_getZone` -/
def getZone (m : Msg) : U8 :=
  let i := (Util.getZoneIndex m.cls m.typ).toNat
  if i < L1_DATA_SIZE then m.data.toList.getD i 0 else 0xFF

/-- src/vscp_dm_ng.c:709-724 `vscp_dm_ng_getSubZone`; `none` for an access outside of the array: only the index of the
zone is compared with the size of the array. -/
def getSubZone (m : Msg) : Option U8 :=
  let i := (Util.getZoneIndex m.cls m.typ).toNat
  if i < L1_DATA_SIZE then m.data[i + 1]? else some 0xFF

/-- `if (dataSize > dataIndex) value = data[dataIndex];`, `none` for an access outside of the array -/
def dataValue (m : Msg) (i : Nat) : Option U16 :=
  if m.size.toNat > i then m.data[i]?.map (·.setWidth 16) else some 0

/-- src/vscp_dm_ng.c:603-678 `vscp_dm_ng_getEventParValue` -/
def getEventParValue (m : Msg) (parId : U8) (dataIndex : U8) : Option U16 :=
  match parId.toNat with
  | 1 => some m.cls
  | 2 => some (m.typ.setWidth 16)
  | 3 => some (m.oAddr.setWidth 16)
  | 4 => some (if m.hard then 1 else 0)
  | 5 => some (m.prio.setWidth 16)
  | 6 => some ((getZone m).setWidth 16)
  | 7 => (getSubZone m).map (·.setWidth 16)
  | 8 => some (m.size.setWidth 16)
  | 9 | 10 | 11 | 12 | 13 | 14 | 15 => dataValue m (parId.toNat - 9)
  | 16 => dataValue m dataIndex.toNat
  | _ => some 0

/-- src/vscp_dm_ng.c:734-792 `vscp_dm_ng_compare` -/
def compare (op : U8) (par value : U16) : Bool :=
  match op.toNat with
  | 1 => par == value
  | 2 => decide (par.toNat < value.toNat)
  | 3 => decide (par.toNat > value.toNat)
  | 4 => decide (par.toNat ≤ value.toNat)
  | 5 => decide (par.toNat ≥ value.toNat)
  | 6 => par &&& value != 0
  | _ => false

/-- One pass of the loop of src/vscp_dm_ng.c:432-527, from reading the condition at `index` to its
result.  `none`: access outside of the rule buffer or the event data; `some none`: `error = TRUE; break`;
otherwise the result of the condition, its logic operator and the index behind it.  `rule` is the complete rule
buffer, `rulePart` is `&rule[3]`. -/
def parseCond (rule : List U8) (size : Nat) (m : Msg) (index : Nat) : Option (Option (Bool × U8 × Nat)) :=
  if size ≤ index + 2 then some none
  else
    match rule[3 + index]? with
    | none => none
    | some op =>
      let basicOp := op &&& 0x0F
      let logicOp := op &&& 0xF0
      if 7 ≤ basicOp.toNat then some none
      else if logicOp ≠ 0x00 ∧ logicOp ≠ 0x10 ∧ logicOp ≠ 0x20 then some none
      else match rule[3 + (index + 1)]? with
        | none => none
        | some parId =>
          if 17 ≤ parId.toNat then some none
          else
            match (if parId = 16 then rule[3 + (index + 2)]? else some 0) with
            | none => none
            | some dataIndex =>
              let i2 := if parId = 16 then index + 3 else index + 2
              if parId = 16 ∧ size ≤ i2 then some none
              else match getEventParValue m parId dataIndex, rule[3 + i2]? with
                | some par, some v =>
                  if parId = 1 then
                    if size ≤ i2 + 1 then some none
                    else match rule[3 + (i2 + 1)]? with
                      | none => none
                      | some lo => some (some (compare basicOp par (mkWord v lo), logicOp, i2 + 2))
                  else some (some (compare basicOp par (v.setWidth 16), logicOp, i2 + 1))
                | _, _ => none

theorem parseCond_next {rule size m index r op next}
    (h : parseCond rule size m index = some (some (r, op, next))) :
    index + 2 < size ∧ index < next := by
  simp only [parseCond] at h
  repeat' split at h
  all_goals simp only [Option.some.injEq, Prod.mk.injEq, reduceCtorEq] at h
  all_goals omega

/-- The loop of src/vscp_dm_ng.c:432-580 and the error handling behind it (lines 583-590).
`prev` is `logicOpPrev`, `none` in the first pass.  Result `none`: undefined behaviour. -/
def decisionLoop (rule : List U8) (size : Nat) (m : Msg) (index : Nat) (result : Bool)
    (prev : Option U8) : Option Bool :=
  match _h : parseCond rule size m index with
  | none => none
  | some none => some false
  | some (some (cond, logicOp, next)) =>
    match (match prev with
      | none => some cond
      | some p =>
        if p = 0x10 then some (result && cond)
        else if p = 0x20 then some (result || cond)
        else none) with
    | none => some false
    | some result =>
      if logicOp = 0x10 ∧ result = false then some result
      else if logicOp = 0x20 ∧ result = true then some result
      else if logicOp = 0 then some result
      else decisionLoop rule size m next result (some logicOp)
termination_by size - index
decreasing_by
  have := parseCond_next _h
  omega

/-- src/vscp_dm_ng.c:417-593 `vscp_dm_ng_getDecisionResult` on `&rule[3]` -/
def getDecisionResult (rule : List U8) (size : Nat) (m : Msg) : Option Bool :=
  if size = 0 then some false else decisionLoop rule size m 0 false none

/-- src/vscp_dm_ng.c:855-895 `vscp_dm_ng_getNextRule` (pointer not null), and the part of
`vscp_dm_ng_getFirstRule` behind the read of the rule count.  Result: the rule buffer, `none` if the
status is not OK. -/
def getNextRule (c : Cfg) (buf : List U8) : M (Option (List U8)) := do
  let w ← get
  if w.dm.ngCnt = 0 then pure none
  else do
    let ruleSize ← Ps.readDmNg c w.dm.ngIdx.toNat
    if RULE_MAX_SIZE < ruleSize.toNat then pure none
    else do
      let w ← get
      let read := (List.range ruleSize.toNat).map fun i => (Ps.readDmNg c (w.dm.ngIdx.toNat + i) w).1
      modify fun w => { w with dm := { w.dm with
        ngIdx := w.dm.ngIdx + ruleSize.setWidth 16, ngCnt := w.dm.ngCnt - 1 } }
      pure (some (read ++ buf.drop ruleSize.toNat))

/-- src/vscp_dm_ng.c:801-846 `vscp_dm_ng_getFirstRule` -/
def getFirstRule (c : Cfg) (buf : List U8) : M (Option (List U8)) := do
  let cnt ← Ps.readDmNg c 0
  modify fun w => { w with dm := { w.dm with ngIdx := 1, ngCnt := cnt } }
  getNextRule c buf

/-- The body of the loop of src/vscp_dm_ng.c:326-371. -/
def execRule (rule : List U8) (m : Msg) : M Unit :=
  match rule[0]?, rule[1]?, rule[2]? with
  | some ruleSize, some actionId, some actionPar =>
    if 6 ≤ ruleSize.toNat then
      if actionId ≠ 0 then
        match getDecisionResult rule (ruleSize.toNat - 3) m with
        | some true => emit (.action actionId actionPar m)
        | some false => pure ()
        | none => markUb
      else pure ()
    else pure ()
  | _, _, _ => markUb

/-- The do-while loop of src/vscp_dm_ng.c:324-372.  The rule counter is a `uint8_t` and is
decremented by every rule, 256 passes are never reached. -/
def rulesLoop (c : Cfg) (m : Msg) : Nat → List U8 → M Unit
  | 0, _ => markUb
  | n + 1, buf => do
    execRule buf m
    match (← getNextRule c buf) with
    | some buf => rulesLoop c m n buf
    | none => pure ()

/-- src/vscp_dm_ng.c:308-375 `vscp_dm_ng_executeActions` (pointer not null).  The rule buffer
is an uninitialised local variable. -/
def executeActions (c : Ctx) (m : Msg) : M Unit := do
  match (← getFirstRule c ((List.range RULE_MAX_SIZE).map c.garbage)) with
  | some buf => rulesLoop c m 256 buf
  | none => pure ()

end DmNg
end Vscp
