/-
Model of src/vscp_dm.c (decision matrix, standard and extension)
-/
import Verif.Model.DevData

namespace Vscp
namespace Dm
open M

/-- src/vscp_dm.c:64, 69 `VSCP_DM_ROWS` -/
def rows (c : Cfg) : Nat := if c.dmExt then 2 * c.dmRows else c.dmRows

/-- src/vscp_dm.c:82, 101 `VSCP_DM_START_PAGE` -/
def startPage (c : Cfg) : Nat := if c.dmPaged then 0 else c.dmPage

/-- src/vscp_dm.c:85, 104 `VSCP_DM_START_OFFSET` -/
def startOffset (c : Cfg) : U8 := if c.dmPaged then 0x7E else c.dmOffset

/-- src/vscp_dm.c:110 `VSCP_DM_PAGES` (`VSCP_DM_MAX_ROWS_PER_PAGE`, line 107, is 256 / 8 = 32) -/
def pages (c : Cfg) : Nat := rows c / 32

/-- src/vscp_dm.c:113 `VSCP_DM_ADDITIONAL_PAGE` -/
def additionalPage (c : Cfg) : Nat :=
  if 255 - (startOffset c).toNat < (startPage c + pages c) + 1 then 1 else 0

/-- src/vscp_dm.c:116 `VSCP_DM_LAST_PAGE` -/
def lastPage (c : Cfg) : Nat := startPage c + pages c + additionalPage c

/-- src/vscp_dm.c:119 `VSCP_DM_LAST_OFFSET`.  It is used only if there is a single page; then
`rows % 32` is not zero and the subtraction does not wrap. -/
def lastOffset (c : Cfg) : Nat :=
  (rows c % 32) * 8 - 1 + (if 0 < additionalPage c then 255 - (startOffset c).toNat else 0)

/-- src/vscp_dm.h:136-147 `vscp_dm_MatrixRow` -/
structure Row where
  oaddr : U8
  flags : U8
  classMask : U8
  classFilter : U8
  typeMask : U8
  typeFilter : U8
  action : U8
  actionPar : U8
deriving DecidableEq

/-- src/vscp_dm.h:168-179 `vscp_dm_ExtRow` -/
structure ExtRow where
  zone : U8
  subZone : U8
  par0 : U8
  par3 : U8
  par4 : U8
  par5 : U8
  action : U8
  actionPar : U8
deriving DecidableEq

/-- The row structures are filled through a byte pointer (src/vscp_dm.c:615, 636), in the order of the
members. -/
def rowOfBytes (l : List U8) : Row :=
  ⟨l.getD 0 0, l.getD 1 0, l.getD 2 0, l.getD 3 0, l.getD 4 0, l.getD 5 0, l.getD 6 0, l.getD 7 0⟩

/-- See `rowOfBytes`. -/
def extRowOfBytes (l : List U8) : ExtRow :=
  ⟨l.getD 0 0, l.getD 1 0, l.getD 2 0, l.getD 3 0, l.getD 4 0, l.getD 5 0, l.getD 6 0, l.getD 7 0⟩

/-- src/vscp_dm.c:191-200 `vscp_dm_init` -/
def init (c : Cfg) : M Unit :=
  if c.dmPaged then modify fun w => { w with dm := { w.dm with idx := 0 } } else pure ()

/-- src/vscp_dm.c:205-230 `vscp_dm_restoreFactoryDefaultSettings`: the byte index passed to the
storage is the row number. -/
def restore (c : Cfg) : M Unit :=
  forUp (fun i => do
    Ps.writeDmMultiple c i (List.replicate 8 0)
    whenM c.dmExt (Ps.writeDmExtMultiple c i (List.replicate 8 0))) c.dmRows

/-- src/vscp_dm.c:237-240 `vscp_dm_getMatrixRows` -/
def getMatrixRows (c : Cfg) : U8 := BitVec.ofNat 8 c.dmRows

/-- src/vscp_dm.c:247-250 `vscp_dm_getPage` -/
def getPage (c : Cfg) : U16 := BitVec.ofNat 16 (startPage c)

/-- src/vscp_dm.c:257-260 `vscp_dm_getMatrixOffset` -/
def getMatrixOffset (c : Cfg) : U8 := startOffset c

/-- src/vscp_dm.c:658-672 `vscp_dm_isDecisionMatrixPagedFeature` -/
def isDecisionMatrixPaged (page : U16) (addr : U8) : Bool :=
  decide (page = 0 ∧ (addr = 0x7E ∨ addr = 0x7F))

/-- src/vscp_dm.c:769-814 `vscp_dm_isDecisionMatrixStd` -/
def isDecisionMatrixStd (c : Cfg) (page : U16) (addr : U8) : Bool :=
  if 0 < rows c then
    if page.toNat = startPage c then
      if (startOffset c).toNat ≤ addr.toNat then
        if startPage c < lastPage c then true
        else if addr.toNat ≤ lastOffset c then true else false
      else false
    else if page.toNat = lastPage c then
      if addr.toNat ≤ (startOffset c).toNat then true else false
    else if startPage c < page.toNat ∧ page.toNat < lastPage c then true
    else false
  else false

/-- src/vscp_dm.c:272-283 `vscp_dm_isDecisionMatrix` -/
def isDecisionMatrix (c : Cfg) (page : U16) (addr : U8) : Bool :=
  if c.dmPaged then isDecisionMatrixPaged page addr else isDecisionMatrixStd c page addr

/-- src/vscp_dm.c:879-914 `vscp_dm_calculateMatrixIndex` (pointers not null): row index and
offset, or `none` for FALSE.  All arithmetic is on `uint16_t byteIndex`; the row index is truncated to `uint8_t`. -/
def calculateMatrixIndex (c : Cfg) (page : U16) (addr : U8) : Option (U8 × U8) :=
  if isDecisionMatrix c page addr then
    let b0 : U16 := (page - BitVec.ofNat 16 (startPage c)) * 8
    let b : U16 :=
      if page.toNat = startPage c then b0 + (addr.setWidth 16 - (startOffset c).setWidth 16)
      else b0 + ((0xFF - (startOffset c).setWidth 16) + 1) + addr.setWidth 16
    some (BitVec.ofNat 8 (b.toNat / 8), BitVec.ofNat 8 (b.toNat % 8))
  else none

/-- `((uint16_t)rowIndex) * sizeof(vscp_dm_MatrixRow) + (uint16_t)rowOffset` -/
def byteIndex (r o : U8) : Nat := r.toNat * 8 + o.toNat

/-- src/vscp_dm.c:823-838 `vscp_dm_readRegisterStd` -/
def readRegisterStd (c : Cfg) (page : U16) (addr : U8) : M U8 :=
  match calculateMatrixIndex c page addr with
  | some (r, o) => Ps.readDm c (byteIndex r o)
  | none => pure 0

/-- src/vscp_dm.c:848-865 `vscp_dm_writeRegisterStd` -/
def writeRegisterStd (c : Cfg) (page : U16) (addr : U8) (v : U8) : M U8 :=
  match calculateMatrixIndex c page addr with
  | some (r, o) => do
    Ps.writeDm c (byteIndex r o) v
    Ps.readDm c (byteIndex r o)
  | none => pure v

/-- src/vscp_dm.c:681-711 `vscp_dm_readRegisterPagedFeature` -/
def readRegisterPaged (c : Cfg) (page : U16) (addr : U8) : M U8 :=
  if page = 0 then
    if addr = 0x7E then do return (← get).dm.idx
    else if addr = 0x7F then do
      let idx := (← get).dm.idx
      if rows c ≤ idx.toNat / 8 then pure 0
      else Ps.readDm c (idx.toNat / 8 * 8 + idx.toNat % 8)
    else pure 0
  else pure 0

/-- src/vscp_dm.c:721-755 `vscp_dm_writeRegisterPagedFeature`; `lastIndex` is a `uint16_t`. -/
def writeRegisterPaged (c : Cfg) (page : U16) (addr : U8) (v : U8) : M U8 :=
  if page = 0 then
    if addr = 0x7E then do
      let lastIndex : U16 := BitVec.ofNat 16 (rows c) * 8 - 1
      whenM (v.toNat ≤ lastIndex.toNat) (modify fun w => { w with dm := { w.dm with idx := v } })
      pure v
    else if addr = 0x7F then do
      let idx := (← get).dm.idx
      if rows c ≤ idx.toNat / 8 then pure 0
      else do
        Ps.writeDm c (idx.toNat / 8 * 8 + idx.toNat % 8) v
        pure v
    else pure v
  else pure v

/-- src/vscp_dm.c:292-303 `vscp_dm_readRegister` -/
def readRegister (c : Cfg) (page : U16) (addr : U8) : M U8 :=
  if c.dmPaged then readRegisterPaged c page addr else readRegisterStd c page addr

/-- src/vscp_dm.c:313-324 `vscp_dm_writeRegister` -/
def writeRegister (c : Cfg) (page : U16) (addr : U8) (v : U8) : M U8 :=
  if c.dmPaged then writeRegisterPaged c page addr v else writeRegisterStd c page addr v

/-- src/vscp_dm.c:595-602 `vscp_dm_isDecisionMatrixRowEnabled` -/
def isRowEnabled (c : Cfg) (i : Nat) : M Bool := do
  let flags ← Ps.readDm c (i * 8 + 1)
  pure (flags &&& 0x80 != 0)

/-- src/vscp_dm.c:610-621 `vscp_dm_readDecisionMatrix`, called with a zeroed row -/
def readRow (c : Cfg) (i : Nat) : M Row := do
  match (← Ps.readDmMultiple c (i * 8) 8) with
  | some l => pure (rowOfBytes l)
  | none => pure (rowOfBytes [])

/-- src/vscp_dm.c:631-642 `vscp_dm_readDecisionMatrixExt`, called with a zeroed row -/
def readExtRow (c : Cfg) (i : Nat) : M ExtRow := do
  match (← Ps.readDmExtMultiple c (i * 8) 8) with
  | some l => pure (extRowOfBytes l)
  | none => pure (extRowOfBytes [])

/-- The zone part of the row check, src/vscp_dm.c:400-461.  FALSE: `continue`.  `nodeZone` and `nodeSubZone`
are the results of `vscp_dev_data_getNodeZone` and `vscp_dev_data_getNodeSubZone`.  The zone index is
compared with 8 before the access, `subZoneIndex` is not: see `zoneOutside` (`data` is read with default 0 here). -/
def zoneCheck (c : Cfg) (nodeZone nodeSubZone : U8) (row : Row) (ext : ExtRow) (m : Msg) : Bool :=
  if row.flags &&& 0x10 ≠ 0 ∨ row.flags &&& 0x08 ≠ 0 then
    let zi := (Util.getZoneIndex m.cls m.typ).toNat
    if zi < L1_DATA_SIZE then
      let zone := m.data.toList.getD zi 0
      let subZone := m.data.toList.getD (zi + 1) 0
      if row.flags &&& 0x10 ≠ 0 ∧ zone ≠ 0xFF ∧
          zone ≠ (if c.dmExt ∧ row.action = 0xFF then ext.zone else nodeZone) then false
      else if row.flags &&& 0x08 ≠ 0 ∧ subZone ≠ 0xFF ∧
          subZone ≠ (if c.dmExt ∧ row.action = 0xFF then ext.subZone else nodeSubZone) then false
      else true
    else false
  else true

/-- The access to the sub-zone in src/vscp_dm.c:409 is outside of the event data. -/
abbrev zoneOutside (row : Row) (m : Msg) : Prop :=
  (row.flags &&& 0x10 ≠ 0 ∨ row.flags &&& 0x08 ≠ 0) ∧ (Util.getZoneIndex m.cls m.typ).toNat < L1_DATA_SIZE ∧
    ¬ (Util.getZoneIndex m.cls m.typ).toNat + 1 < L1_DATA_SIZE

/-- `if ((0 == / 3 >= / ... dataSize) continue; else if (extRow.par != data[i]) continue;`,
src/vscp_dm.c:497-558.  TRUE: the row is not skipped. -/
def parCheck (flag : Bool) (i : Nat) (par : U8) (m : Msg) : Bool :=
  if flag then
    if m.size.toNat ≤ i then false else par == m.data.toList.getD i 0
  else true

/-- The body of the loop of src/vscp_dm.c:342-580 after the row has been read: the action to be
executed, or `none` for `continue`. -/
def rowAction (c : Cfg) (nodeZone nodeSubZone : U8) (row : Row) (ext : ExtRow) (m : Msg) :
    Option (U8 × U8) :=
  if row.action = 0 then none
  else if row.flags &&& 0x40 ≠ 0 ∧ row.oaddr ≠ m.oAddr then none
  else if row.flags &&& 0x20 ≠ 0 ∧ m.hard = false then none
  else if zoneCheck c nodeZone nodeSubZone row ext m = false then none
  else
    let classMask : U16 :=
      if row.flags &&& 0x02 ≠ 0 then row.classMask.setWidth 16 ||| 0x0100 else row.classMask.setWidth 16
    let classFilter : U16 :=
      if row.flags &&& 0x01 ≠ 0 then row.classFilter.setWidth 16 ||| 0x0100
      else row.classFilter.setWidth 16
    if classMask ≠ 0 ∧ classFilter ≠ classMask &&& m.cls then none
    else if row.typeMask ≠ 0 ∧ row.typeFilter ≠ row.typeMask &&& m.typ then none
    else if c.dmExt ∧ row.action = 0xFF then
      if parCheck (row.actionPar &&& 0x01 != 0) 0 ext.par0 m = false then none
      else if parCheck (row.actionPar &&& 0x02 != 0) 3 ext.par3 m = false then none
      else if parCheck (row.actionPar &&& 0x04 != 0) 4 ext.par4 m = false then none
      else if parCheck (row.actionPar &&& 0x08 != 0) 5 ext.par5 m = false then none
      else some (ext.action, ext.actionPar)
    else some (row.action, row.actionPar)

/-- One iteration of the loop of src/vscp_dm.c:342-580.  A row with an access outside of the event data is marked even if a condition
checked before lets the code skip it. -/
def execRow (c : Cfg) (m : Msg) (i : Nat) : M Unit := do
  if (← isRowEnabled c i) then do
    let row ← readRow c i
    let ext ← (if c.dmExt then readExtRow c i else pure (extRowOfBytes []))
    let nodeZone ← DevData.getZone c
    let nodeSubZone ← DevData.getSubZone c
    whenM (zoneOutside row m) markUb
    match rowAction c nodeZone nodeSubZone row ext m with
    | some (a, p) => emit (.action a p m)
    | none => pure ()
  else pure ()

/-- src/vscp_dm.c:332-583 `vscp_dm_executeActions` (pointer not null).  The loop counter is a `uint8_t`: with
more than 255 rows the loop does not end, which is marked like undefined behaviour. -/
def executeActions (c : Cfg) (m : Msg) : M Unit :=
  if c.dmRows ≤ 255 then forUp (execRow c m) c.dmRows else markUb

end Dm
end Vscp
