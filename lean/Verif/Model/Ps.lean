/-
Model of src/vscp_ps.h (layout of the persistent memory) and src/vscp_ps.c (accessors).

Simplification: the 16 bit address of the access functions is not truncated, i.e. the layout is assumed
to end at an address of at most 65536.  Functions which exist only if a feature is
enabled are total here; they are called only where the code compiles the call in.
-/
import Verif.Model.World

namespace Vscp
namespace Ps

/-! ### Layout -/

/-- src/vscp_ps.h:132 `VSCP_PS_ADDR_BOOT_FLAG` -/
def addrBootFlag (_c : Cfg) : Nat := 0
/-- src/vscp_ps.h:137, 142 `VSCP_PS_SIZE_BOOT_FLAG` -/
def sizeBootFlag (c : Cfg) : Nat := if c.bootLoader then 1 else 0
/-- src/vscp_ps.h:151 `VSCP_PS_ADDR_NICKNAME` -/
def addrNickname (c : Cfg) : Nat := addrBootFlag c + sizeBootFlag c
/-- src/vscp_ps.h:154 `VSCP_PS_SIZE_NICKNAME` -/
def sizeNickname (_c : Cfg) : Nat := 1
/-- src/vscp_ps.h:157 `VSCP_PS_ADDR_SEGMENT_CONTROLLER_CRC` -/
def addrSegCrc (c : Cfg) : Nat := addrNickname c + sizeNickname c
/-- src/vscp_ps.h:160 `VSCP_PS_SIZE_SEGMENT_CONTROLLER_CRC` -/
def sizeSegCrc (_c : Cfg) : Nat := 1
/-- src/vscp_ps.h:163 `VSCP_PS_ADDR_NODE_CONTROL_FLAGS` -/
def addrFlags (c : Cfg) : Nat := addrSegCrc c + sizeSegCrc c
/-- src/vscp_ps.h:166 `VSCP_PS_SIZE_NODE_CONTROL_FLAGS` -/
def sizeFlags (_c : Cfg) : Nat := 1
/-- src/vscp_ps.h:169 `VSCP_PS_ADDR_USER_ID` -/
def addrUserId (c : Cfg) : Nat := addrFlags c + sizeFlags c
/-- src/vscp_ps.h:172 `VSCP_PS_SIZE_USER_ID` -/
def sizeUserId (_c : Cfg) : Nat := 5
/-- src/vscp_ps.h:179 `VSCP_PS_ADDR_GUID` -/
def addrGuid (c : Cfg) : Nat := addrUserId c + sizeUserId c
/-- src/vscp_ps.h:184, 189 `VSCP_PS_SIZE_GUID` -/
def sizeGuid (c : Cfg) : Nat := if c.guidPs then 16 else 0
/-- src/vscp_ps.h:194 `VSCP_PS_ADDR_NODE_ZONE` -/
def addrZone (c : Cfg) : Nat := addrGuid c + sizeGuid c
/-- src/vscp_ps.h:199, 204 `VSCP_PS_SIZE_NODE_ZONE` -/
def sizeZone (c : Cfg) : Nat := if c.zonePs then 1 else 0
/-- src/vscp_ps.h:209 `VSCP_PS_ADDR_NODE_SUB_ZONE` -/
def addrSubZone (c : Cfg) : Nat := addrZone c + sizeZone c
/-- src/vscp_ps.h:214, 219 `VSCP_PS_SIZE_NODE_SUB_ZONE` -/
def sizeSubZone (c : Cfg) : Nat := if c.subZonePs then 1 else 0
/-- src/vscp_ps.h:224 `VSCP_PS_ADDR_MANUFACTURER_DEV_ID` -/
def addrManu (c : Cfg) : Nat := addrSubZone c + sizeSubZone c
/-- src/vscp_ps.h:229, 234 `VSCP_PS_SIZE_MANUFACTURER_DEV_ID` -/
def sizeManu (c : Cfg) : Nat := if c.manuPs then 4 else 0
/-- src/vscp_ps.h:239 `VSCP_PS_ADDR_MANUFACTURER_SUB_DEV_ID` -/
def addrManuSub (c : Cfg) : Nat := addrManu c + sizeManu c
/-- src/vscp_ps.h:244, 249 `VSCP_PS_SIZE_MANUFACTURER_SUB_DEV_ID` -/
def sizeManuSub (c : Cfg) : Nat := if c.manuSubPs then 4 else 0
/-- src/vscp_ps.h:254 `VSCP_PS_ADDR_MDF_URL` -/
def addrMdf (c : Cfg) : Nat := addrManuSub c + sizeManuSub c
/-- src/vscp_ps.h:259, 264 `VSCP_PS_SIZE_MDF_URL` -/
def sizeMdf (c : Cfg) : Nat := if c.mdfPs then 32 else 0
/-- src/vscp_ps.h:269 `VSCP_PS_ADDR_STD_DEV_FAMILY_CODE` -/
def addrFam (c : Cfg) : Nat := addrMdf c + sizeMdf c
/-- src/vscp_ps.h:274, 279 `VSCP_PS_SIZE_STD_DEV_FAMILY_CODE` -/
def sizeFam (c : Cfg) : Nat := if c.famPs then 4 else 0
/-- src/vscp_ps.h:284 `VSCP_PS_ADDR_STD_DEV_TYPE` -/
def addrType (c : Cfg) : Nat := addrFam c + sizeFam c
/-- src/vscp_ps.h:289, 294 `VSCP_PS_SIZE_STD_DEV_TYPE` -/
def sizeType (c : Cfg) : Nat := if c.typePs then 4 else 0
/-- src/vscp_ps.h:299 `VSCP_PS_ADDR_LOG_ID` -/
def addrLogId (c : Cfg) : Nat := addrType c + sizeType c
/-- src/vscp_ps.h:304, 309 `VSCP_PS_SIZE_LOG_ID` -/
def sizeLogId (c : Cfg) : Nat := if c.logger then 1 else 0
/-- src/vscp_ps.h:318 `VSCP_PS_ADDR_DM` -/
def addrDm (c : Cfg) : Nat := addrLogId c + sizeLogId c
/-- src/vscp_ps.h:323, 328 `VSCP_PS_SIZE_DM` -/
def sizeDm (c : Cfg) : Nat := if c.dm then c.dmRows * 8 else 0
/-- src/vscp_ps.h:333 `VSCP_PS_ADDR_DM_EXTENSION` -/
def addrDmExt (c : Cfg) : Nat := addrDm c + sizeDm c
/-- src/vscp_ps.h:338, 343 `VSCP_PS_SIZE_DM_EXTENSION` -/
def sizeDmExt (c : Cfg) : Nat := if c.dmExt then c.dmRows * 8 else 0
/-- src/vscp_ps.h:352 `VSCP_PS_ADDR_DM_NEXT_GENERATION` -/
def addrDmNg (c : Cfg) : Nat := addrDmExt c + sizeDmExt c
/-- src/vscp_ps.h:357, 362 `VSCP_PS_SIZE_DM_NEXT_GENERATION` -/
def sizeDmNg (c : Cfg) : Nat := if c.dmNg then c.ngSize else 0
/-- src/vscp_ps.h:372 `VSCP_PS_ADDR_NEXT` -/
def addrNext (c : Cfg) : Nat := addrDmNg c + sizeDmNg c

/-! ### Accessors -/

/-- The common body of the indexed readers: `if (SIZE > index) value = read8(ADDR + index)`, else 0. -/
def readIdx (addr size i : Nat) : M U8 := if size > i then psRead8 (addr + i) else pure 0

/-- The common body of the indexed writers. -/
def writeIdx (addr size i : Nat) (v : U8) : M Unit :=
  if size > i then psWrite8 (addr + i) v else pure ()

/-- src/vscp_ps.c:98-101 `vscp_ps_readBootFlag` -/
def readBootFlag (c : Cfg) : M U8 := psRead8 (addrBootFlag c)
/-- src/vscp_ps.c:108-112 `vscp_ps_writeBootFlag` -/
def writeBootFlag (c : Cfg) (v : U8) : M Unit := psWrite8 (addrBootFlag c) v
/-- src/vscp_ps.c:121-124 `vscp_ps_readNicknameId` -/
def readNickname (c : Cfg) : M U8 := psRead8 (addrNickname c)
/-- src/vscp_ps.c:131-135 `vscp_ps_writeNicknameId` -/
def writeNickname (c : Cfg) (v : U8) : M Unit := psWrite8 (addrNickname c) v
/-- src/vscp_ps.c:144-147 `vscp_ps_readSegmentControllerCRC` -/
def readSegCrc (c : Cfg) : M U8 := psRead8 (addrSegCrc c)
/-- src/vscp_ps.c:154-158 `vscp_ps_writeSegmentControllerCRC` -/
def writeSegCrc (c : Cfg) (v : U8) : M Unit := psWrite8 (addrSegCrc c) v
/-- src/vscp_ps.c:167-170 `vscp_ps_readNodeControlFlags` -/
def readFlags (c : Cfg) : M U8 := psRead8 (addrFlags c)
/-- src/vscp_ps.c:177-181 `vscp_ps_writeNodeControlFlags` -/
def writeFlags (c : Cfg) (v : U8) : M Unit := psWrite8 (addrFlags c) v
/-- src/vscp_ps.c:266-269 `vscp_ps_readNodeZone` -/
def readZone (c : Cfg) : M U8 := psRead8 (addrZone c)
/-- src/vscp_ps.c:276-280 `vscp_ps_writeNodeZone` -/
def writeZone (c : Cfg) (v : U8) : M Unit := psWrite8 (addrZone c) v
/-- src/vscp_ps.c:291-294 `vscp_ps_readNodeSubZone` -/
def readSubZone (c : Cfg) : M U8 := psRead8 (addrSubZone c)
/-- src/vscp_ps.c:301-305 `vscp_ps_writeNodeSubZone` -/
def writeSubZone (c : Cfg) (v : U8) : M Unit := psWrite8 (addrSubZone c) v
/-- src/vscp_ps.c:515-518 `vscp_ps_readLogId` -/
def readLogId (c : Cfg) : M U8 := psRead8 (addrLogId c)
/-- src/vscp_ps.c:525-529 `vscp_ps_writeLogId` -/
def writeLogId (c : Cfg) (v : U8) : M Unit := psWrite8 (addrLogId c) v
/-- src/vscp_ps.c:190-200 `vscp_ps_readUserId` -/
def readUserId (c : Cfg) (i : Nat) : M U8 := readIdx (addrUserId c) (sizeUserId c) i
/-- src/vscp_ps.c:209-217 `vscp_ps_writeUserId` -/
def writeUserId (c : Cfg) (i : Nat) (v : U8) : M Unit :=
  writeIdx (addrUserId c) (sizeUserId c) i v
/-- src/vscp_ps.c:228-238 `vscp_ps_readGUID` -/
def readGuid (c : Cfg) (i : Nat) : M U8 := readIdx (addrGuid c) (sizeGuid c) i
/-- src/vscp_ps.c:247-255 `vscp_ps_writeGUID` -/
def writeGuid (c : Cfg) (i : Nat) (v : U8) : M Unit :=
  writeIdx (addrGuid c) (sizeGuid c) i v
/-- src/vscp_ps.c:318-328 `vscp_ps_readManufacturerDevId` -/
def readManu (c : Cfg) (i : Nat) : M U8 := readIdx (addrManu c) (sizeManu c) i
/-- src/vscp_ps.c:337-345 `vscp_ps_writeManufacturerDevId` -/
def writeManu (c : Cfg) (i : Nat) (v : U8) : M Unit :=
  writeIdx (addrManu c) (sizeManu c) i v
/-- src/vscp_ps.c:358-368 `vscp_ps_readManufacturerSubDevId` -/
def readManuSub (c : Cfg) (i : Nat) : M U8 := readIdx (addrManuSub c) (sizeManuSub c) i
/-- src/vscp_ps.c:377-385 `vscp_ps_writeManufacturerSubDevId` -/
def writeManuSub (c : Cfg) (i : Nat) (v : U8) : M Unit :=
  writeIdx (addrManuSub c) (sizeManuSub c) i v
/-- src/vscp_ps.c:397-407 `vscp_ps_readMdfUrl` -/
def readMdf (c : Cfg) (i : Nat) : M U8 := readIdx (addrMdf c) (sizeMdf c) i
/-- src/vscp_ps.c:416-424 `vscp_ps_writeMdfUrl` -/
def writeMdf (c : Cfg) (i : Nat) (v : U8) : M Unit :=
  writeIdx (addrMdf c) (sizeMdf c) i v
/-- src/vscp_ps.c:437-447 `vscp_ps_readStdDevFamilyCode` -/
def readFam (c : Cfg) (i : Nat) : M U8 := readIdx (addrFam c) (sizeFam c) i
/-- src/vscp_ps.c:456-464 `vscp_ps_writeStdDevFamilyCode` -/
def writeFam (c : Cfg) (i : Nat) (v : U8) : M Unit :=
  writeIdx (addrFam c) (sizeFam c) i v
/-- src/vscp_ps.c:477-487 `vscp_ps_readStdDevType` -/
def readType (c : Cfg) (i : Nat) : M U8 := readIdx (addrType c) (sizeType c) i
/-- src/vscp_ps.c:496-504 `vscp_ps_writeStdDevType` -/
def writeType (c : Cfg) (i : Nat) (v : U8) : M Unit :=
  writeIdx (addrType c) (sizeType c) i v
/-- src/vscp_ps.c:541-551 `vscp_ps_readDM` -/
def readDm (c : Cfg) (i : Nat) : M U8 := readIdx (addrDm c) (sizeDm c) i
/-- src/vscp_ps.c:559-567 `vscp_ps_writeDM` -/
def writeDm (c : Cfg) (i : Nat) (v : U8) : M Unit :=
  writeIdx (addrDm c) (sizeDm c) i v
/-- src/vscp_ps.c:619-629 `vscp_ps_readDMExtension` -/
def readDmExt (c : Cfg) (i : Nat) : M U8 := readIdx (addrDmExt c) (sizeDmExt c) i
/-- src/vscp_ps.c:637-645 `vscp_ps_writeDMExtension` -/
def writeDmExt (c : Cfg) (i : Nat) (v : U8) : M Unit :=
  writeIdx (addrDmExt c) (sizeDmExt c) i v
/-- src/vscp_ps.c:693-703 `vscp_ps_readDMNextGeneration` -/
def readDmNg (c : Cfg) (i : Nat) : M U8 := readIdx (addrDmNg c) (sizeDmNg c) i
/-- src/vscp_ps.c:711-719 `vscp_ps_writeDMNextGeneration` -/
def writeDmNg (c : Cfg) (i : Nat) (v : U8) : M Unit :=
  writeIdx (addrDmNg c) (sizeDmNg c) i v

/-- src/vscp_ps.c:576-588 `vscp_ps_readDMMultiple` (buffer not null).  `none`:
the buffer is left as it is. -/
def readDmMultiple (c : Cfg) (i n : Nat) : M (Option (List U8)) :=
  if 0 < n ∧ sizeDm c ≥ i + n then some <$> psReadMultiple (addrDm c + i) n else pure none
/-- src/vscp_ps.c:597-609 `vscp_ps_writeDMMultiple` (buffer not null) -/
def writeDmMultiple (c : Cfg) (i : Nat) (l : List U8) : M Unit :=
  if 0 < l.length ∧ sizeDm c ≥ i + l.length then psWriteMultiple (addrDm c + i) l else pure ()
/-- src/vscp_ps.c:654-662 `vscp_ps_readDMExtensionMultiple` -/
def readDmExtMultiple (c : Cfg) (i n : Nat) : M (Option (List U8)) :=
  if sizeDmExt c ≥ i + n then some <$> psReadMultiple (addrDmExt c + i) n else pure none
/-- src/vscp_ps.c:671-679 `vscp_ps_writeDMExtensionMultiple` -/
def writeDmExtMultiple (c : Cfg) (i : Nat) (l : List U8) : M Unit :=
  if sizeDmExt c ≥ i + l.length then psWriteMultiple (addrDmExt c + i) l else pure ()

end Ps
end Vscp
