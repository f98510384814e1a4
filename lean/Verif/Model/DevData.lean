/-
Model of src/vscp_dev_data.c
-/
import Verif.Model.Transport

namespace Vscp
namespace DevData
open M

/-- `((const uint8_t*)&x)[index]` for `index < 4`: byte of a `uint32_t` in memory order. -/
def memByte (c : Cfg) (x : U32) (i : Nat) : U8 :=
  (x >>> (8 * (if c.littleEndian then i else 3 - i))).setWidth 8

/-- `(uint8_t)((x >> index) & 0xff)`, src/vscp_dev_data.c:197, 215, 431, 467 -/
def shiftByte (x : U32) (i : Nat) : U8 := (x >>> i).setWidth 8

/-- src/vscp_dev_data.c:94-226 `vscp_dev_data_restoreFactoryDefaultSettings` -/
def restore (c : Cfg) : M Unit := do
  whenM c.guidPs (forUp (fun i => Ps.writeGuid c (16 - i - 1) (c.guid.toList.getD i 0)) 16)
  whenM c.zonePs (Ps.writeZone c c.zone)
  whenM c.subZonePs (Ps.writeSubZone c c.subZone)
  whenM c.manuPs (forUp (fun i => Ps.writeManu c i (memByte c c.manu i)) 4)
  whenM c.manuSubPs (forUp (fun i => Ps.writeManuSub c i (memByte c c.manuSub i)) 4)
  whenM c.mdfPs (forUp (fun i => Ps.writeMdf c i (c.mdfUrl.getD i 0)) 32)
  whenM (c.familyEn ∧ c.famPs) (forUp (fun i => Ps.writeFam c i (shiftByte c.famCode i)) 4)
  whenM (c.familyEn ∧ c.typePs) (forUp (fun i => Ps.writeType c i (shiftByte c.devType i)) 4)

/-- src/vscp_dev_data.c:235-260 `vscp_dev_data_getGUID` -/
def getGuid (c : Ctx) (i : Nat) : M U8 :=
  if c.guidPs then Ps.readGuid c i
  else if c.guidExt then pure (c.extGuid (BitVec.ofNat 8 i))
  else pure (if 16 > i then c.guid.toList.getD (16 - i - 1) 0 else 0)

/-- src/vscp_dev_data.c:267-278 `vscp_dev_data_getNodeZone` -/
def getZone (c : Cfg) : M U8 := if c.zonePs then Ps.readZone c else pure c.zone

/-- src/vscp_dev_data.c:285-296 `vscp_dev_data_getNodeSubZone` -/
def getSubZone (c : Cfg) : M U8 := if c.subZonePs then Ps.readSubZone c else pure c.subZone

/-- src/vscp_dev_data.c:305-324 `vscp_dev_data_getManufacturerDevId` -/
def getManu (c : Cfg) (i : Nat) : M U8 :=
  if c.manuPs then Ps.readManu c i else pure (if 4 > i then memByte c c.manu i else 0)

/-- src/vscp_dev_data.c:333-352 `vscp_dev_data_getManufacturerSubDevId` -/
def getManuSub (c : Cfg) (i : Nat) : M U8 :=
  if c.manuSubPs then Ps.readManuSub c i else pure (if 4 > i then memByte c c.manuSub i else 0)

/-- src/vscp_dev_data.c:360-386 `vscp_dev_data_getMdfUrl`; `mdfUrl` are the characters before the
terminating NUL. -/
def getMdf (c : Cfg) (i : Nat) : M U8 :=
  if c.mdfPs then Ps.readMdf c i else pure (c.mdfUrl.getD i 0)

/-- `if (0xFF == value) value = 0x00;` -/
def ffToZero (v : U8) : U8 := if 0xFF = v then 0 else v

/-- src/vscp_dev_data.c:426-452 `vscp_dev_data_getStdDevFamilyCode` -/
def getFam (c : Cfg) (i : Nat) : M U8 :=
  if c.familyEn then
    if c.famPs then ffToZero <$> Ps.readFam c i else pure (ffToZero (shiftByte c.famCode i))
  else pure 0

/-- src/vscp_dev_data.c:462-488 `vscp_dev_data_getStdDevType` -/
def getType (c : Cfg) (i : Nat) : M U8 :=
  if c.familyEn then
    if c.typePs then ffToZero <$> Ps.readType c i else pure (ffToZero (shiftByte c.devType i))
  else pure 0

/-- src/vscp_dev_data.c:393-416 firmware version functions, and src/vscp_dev_data.c:501-504
`vscp_dev_data_getFirmwareDeviceCode` are the constants `verMajor`, `verMinor`, `verSubMinor` and `fwDevCode`. -/
def firmwareDeviceCode (c : Cfg) : U16 := c.fwDevCode

end DevData
end Vscp
