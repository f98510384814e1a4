/-
Specification of the registers of a node: the register map of the VSCP specification (page 0, addresses 0x80 - 0xFF), and
the observable parts of a trace.
-/
import Verif.Model.Core

namespace Vscp.Spec

/-- The contents of the VSCP registers. -/
inductive Reg
  | alarmStatus | versionMajor | versionMinor | controlFlags
  | userId (i : Nat) | manufacturerId (i : Nat) | manufacturerSubId (i : Nat)
  | nickname | pageSelectMsb | pageSelectLsb
  | firmwareMajor | firmwareMinor | firmwareSubMinor
  | bootLoaderAlgorithm | bufferSize | pagesUsed
  /-- byte `i` of the family code and device type, byte 0 is the least significant one -/
  | familyCode (i : Nat) | deviceType (i : Nat)
  | restoreStdConfig
  | deviceCodeMsb | deviceCodeLsb
  | reserved
  /-- GUID byte `i`, 15 is the most significant one -/
  | guid (i : Nat)
  | mdfUrl (i : Nat)

/-- The register map from address 0x80 on. -/
def registerMap : List Reg :=
  [.alarmStatus, .versionMajor, .versionMinor, .controlFlags] ++                  -- 0x80
  [.userId 0, .userId 1, .userId 2, .userId 3, .userId 4] ++                      -- 0x84
  [.manufacturerId 0, .manufacturerId 1, .manufacturerId 2, .manufacturerId 3] ++ -- 0x89
  [.manufacturerSubId 0, .manufacturerSubId 1, .manufacturerSubId 2, .manufacturerSubId 3] ++ -- 0x8D
  [.nickname, .pageSelectMsb, .pageSelectLsb] ++                                  -- 0x91
  [.firmwareMajor, .firmwareMinor, .firmwareSubMinor] ++                          -- 0x94
  [.bootLoaderAlgorithm, .bufferSize, .pagesUsed] ++                              -- 0x97
  [.familyCode 3, .familyCode 2, .familyCode 1, .familyCode 0] ++                 -- 0x9A
  [.deviceType 3, .deviceType 2, .deviceType 1, .deviceType 0] ++                 -- 0x9E
  [.restoreStdConfig, .deviceCodeMsb, .deviceCodeLsb] ++                          -- 0xA2
  List.replicate 43 .reserved ++                                                  -- 0xA5
  [.guid 15, .guid 14, .guid 13, .guid 12, .guid 11, .guid 10, .guid 9, .guid 8,
   .guid 7, .guid 6, .guid 5, .guid 4, .guid 3, .guid 2, .guid 1, .guid 0] ++     -- 0xD0
  (List.range 32).map .mdfUrl                                                     -- 0xE0

/-- The node zone or the node sub-zone is stored. -/
def storesZone (c : Cfg) : Out → Prop
  | .psW a _ => c.zonePs = true ∧ a = Ps.addrZone c ∨ c.subZonePs = true ∧ a = Ps.addrSubZone c
  | _ => False

/-- The quantity a register shows.  The device data are what the device data module reports (see C14, C15). -/
def Reg.value (c : Ctx) (w : W) : Reg → U8
  | .alarmStatus => w.v.alarm
  | .versionMajor => 1
  | .versionMinor => 13
  | .controlFlags => w.ps (Ps.addrFlags c)
  | .userId i => w.ps (Ps.addrUserId c + i)
  | .manufacturerId i => (DevData.getManu c i w).1
  | .manufacturerSubId i => (DevData.getManuSub c i w).1
  | .nickname => w.v.nick
  | .pageSelectMsb => BitVec.ofNat 8 (w.v.page.toNat / 256)
  | .pageSelectLsb => BitVec.ofNat 8 (w.v.page.toNat % 256)
  | .firmwareMajor => c.verMajor
  | .firmwareMinor => c.verMinor
  | .firmwareSubMinor => c.verSubMinor
  | .bootLoaderAlgorithm => if c.bootLoader then c.bootAlgo else 0xFF
  | .bufferSize => 8
  | .pagesUsed => c.pagesUsed
  | .familyCode i => (DevData.getFam c i w).1
  | .deviceType i => (DevData.getType c i w).1
  | .restoreStdConfig => 0
  | .deviceCodeMsb => BitVec.ofNat 8 (c.fwDevCode.toNat / 256)
  | .deviceCodeLsb => BitVec.ofNat 8 (c.fwDevCode.toNat % 256)
  | .reserved => 0
  | .guid i => (DevData.getGuid c i w).1
  | .mdfUrl i => (DevData.getMdf c i w).1

/-- The VSCP registers which can be written: control flags, user id, page select, restore. -/
def writable (addr : U8) : Bool :=
  [0x83, 0x84, 0x85, 0x86, 0x87, 0x88, 0x92, 0x93, 0xA2].contains addr.toNat

/-- The call transmits a frame. -/
def isTx : Out → Bool
  | .tx _ _ => true
  | _ => false

/-- The call reads a register of the application. -/
def isAppRead : Out → Bool
  | .appRead _ _ _ => true
  | _ => false

/-- The frames of a trace. -/
def frames (t : List Out) : List Msg := t.filterMap fun o => match o with | .tx m _ => some m | _ => none

/-- The reads of application registers of a trace: page, address and the value delivered. -/
def appReads (t : List Out) : List (U16 × U8 × U8) :=
  t.filterMap fun o => match o with | .appRead p a v => some (p, a, v) | _ => none

/-- The data bytes of an event. -/
def payload (m : Msg) : List U8 := m.data.toList.take m.size.toNat

/-- A protocol event of the given type with exactly the given data bytes. -/
structure Request (m : Msg) (typ : U8) (l : List U8) : Prop where
  cls : m.cls = 0
  typ : m.typ = typ
  size : m.size = BitVec.ofNat 8 l.length
  data : m.data.toList.take l.length = l

/-- A protocol event sent by a node with nickname `nick`. -/
def event (c : Ctx) (nick : U8) (prio typ : U8) (l : List U8) : Msg :=
  ⟨prio, 0, typ, nick, c.hardCoded, BitVec.ofNat 8 l.length, bytes8 l⟩

/-- The register is served by the application: it is no VSCP register, and not part of a decision matrix. -/
def appServed (c : Ctx) (page : U16) (addr : U8) : Bool :=
  !decide (page = 0 ∧ 0x80 ≤ addr.toNat) && !(c.dm && Dm.isDecisionMatrix c page addr) &&
    !(c.dmNg && DmNg.isDecisionMatrix c page addr)

/-- `vs` are the values of the registers `as` of the page, read in state `w`; `rs` are the requests to the application.
Registers kept by the node have the value which a single read delivers.  The application is asked once for each of its
registers, in order. -/
structure Values (c : Ctx) (page : U16) (w : W) (as vs : List U8) (rs : List (U16 × U8 × U8)) : Prop where
  length : vs.length = as.length
  kept : ∀ x ∈ as.zip vs, appServed c page x.1 = false → x.2 = (Core.readRegister c page x.1 w).1
  app : rs = ((as.zip vs).filter fun x => appServed c page x.1).map fun x => (page, x.1, x.2)

/-- `n` consecutive addresses. -/
def addresses (addr : U8) (n : Nat) : List U8 := (List.range n).map fun i => addr + BitVec.ofNat 8 i

/-- Single writes to registers of a page, one after the other: the values they report, and the node afterwards.  A write
which is not accepted reports 0 (see C18 - C20 for single writes). -/
def writeRegs (c : Ctx) (page : U16) : List (U8 × U8) → W → List U8 × W
  | [], w => ([], w)
  | x :: l, w =>
    let r := Core.writeRegister c page x.1 x.2 w
    let s := writeRegs c page l r.2
    (r.1.1 :: s.1, s.2)

/-- Payload of frame `i` of a response: the number of the frame, and up to seven bytes. -/
def numbered (l : List U8) (i : Nat) : List U8 := BitVec.ofNat 8 i :: (l.drop (7 * i)).take 7

end Vscp.Spec
