/-
Model of src/vscp_core.c

The received message is kept in a static variable by the code.  No function changes it while it is processed, so the
handlers get it as argument `m`, and the state functions as `rx : Option Msg` (`none`:
`vscp_core_rxMessageValid` is FALSE).
-/
import Verif.Model.Logger

namespace Vscp
namespace Core
open M

/-- `VSCP_NICKNAME_NOT_INIT`, src/vscp_types.h -/
def NOT_INIT : U8 := 0xFF
/-- `VSCP_NICKNAME_SEGMENT_MASTER`, src/vscp_types.h -/
def MASTER : U8 := 0x00

/-- src/vscp_core.c:2961-2964 `vscp_core_getStartUpControl` -/
def getStartUpControl (c : Cfg) : M U8 := do
  let f ← Ps.readFlags c
  pure ((f >>> 6) &&& 0x03)

/-- src/vscp_core.c:2973-2976 `vscp_core_getRegAppWriteProtect` -/
def getRegAppWriteProtect (c : Cfg) : M U8 := do
  let f ← Ps.readFlags c
  pure ((f >>> 5) &&& 0x01)

/-- src/vscp_core.c:710-721 `vscp_core_writeNicknameId` -/
def writeNicknameId (c : Cfg) (n : U8) : M Unit := do
  Ps.writeNickname c n
  let r ← Ps.readNickname c
  setV fun v => { v with nick := r }

/-- src/vscp_core.c:734-746 `vscp_core_checkPersistentMemory` -/
def checkPersistentMemory (c : Cfg) : M Bool := do
  let s ← getStartUpControl c
  pure (if 0x01 ≠ s ∧ 0x02 ≠ s then false else true)

/-- src/vscp_core.c:398-454 `vscp_core_restoreFactoryDefaultSettings` -/
def restoreFactoryDefaultSettings (c : Ctx) : M Unit := do
  setV fun v => { v with alarm := 0, page := 0, ext := ⟨0, 0, 0, 0⟩ }
  writeNicknameId c NOT_INIT
  whenM c.hbSegment (Ps.writeSegCrc c 0xFF)
  Ps.writeFlags c 0xA0
  forUp (fun i => Ps.writeUserId c i 0) (Ps.sizeUserId c)
  DevData.restore c
  whenM c.dm (Dm.restore c)
  whenM c.dmNg (DmNg.restore c)
  emit .appRestore
  emit .portRestore

/-! ### State changes -/

/-- src/vscp_core.c:807-832 `vscp_core_changeToStateInit` -/
def changeToStateInit (c : Ctx) (probeMaster : Bool) : M Unit := do
  let w ← get
  whenM (w.v.st ≠ .init) (do
    emit (.lamp .blinkFast)
    setV fun v => { v with
      st := .init
      ist := if probeMaster = false then .probe else .probeMaster
      probe := if probeMaster = false then c.startProbe else MASTER }
    writeNicknameId c NOT_INIT)

/-- src/vscp_core.c:1009-1014 `vscp_core_changeToStatePreActive` -/
def changeToStatePreActive : M Unit := setV fun v => { v with st := .preActive }

/-- src/vscp_core.c:1075-1109 `vscp_core_changeToStateActive` -/
def changeToStateActive (c : Ctx) : M Unit := do
  let w ← get
  whenM (w.v.st ≠ .active) (do
    emit (.lamp .on)
    setV fun v => { v with st := .active }
    txVoid c 0 2 [w.v.nick]
    whenM (c.hbNode ∧ w.v.hbOn) (timerStart .heartbeat c.hbPeriod))

/-- src/vscp_core.c:1198-1217 `vscp_core_changeToStateIdle` -/
def changeToStateIdle (c : Cfg) : M Unit := do
  let w ← get
  whenM (w.v.st ≠ .idle) (do
    emit (.lamp .off)
    setV fun v => { v with st := .idle }
    whenM c.idleCallout (emit .idleEntered))

/-- src/vscp_core.c:1233-1258 `vscp_core_changeToStateReset` -/
def changeToStateReset (timeout : U8) : M Unit := do
  let w ← get
  whenM (w.v.st ≠ .reset) (do
    emit (.lamp .off)
    setV fun v => { v with st := .reset, secCnt := timeout }
    (if 0 < timeout.toNat then timerStart .main 1000 else timerStop .main))

/-- src/vscp_core.c:1298-1317 `vscp_core_changeToStateError` -/
def changeToStateError (c : Cfg) : M Unit := do
  let w ← get
  whenM (w.v.st ≠ .error) (do
    emit (.lamp .off)
    setV fun v => { v with st := .error }
    whenM c.errorCallout (emit .errorEntered))

/-! ### Registers -/

/-- The VSCP registers, src/vscp_core.c:1832-2000: the switch statement, case by case.  Cases with consecutive addresses
and one body are written as a range. -/
def readVscpRegister (c : Ctx) (addr : U8) : M U8 :=
  let a := addr.toNat
  if a = 0x80 then do
    let w ← get
    setV fun v => { v with alarm := 0 }
    pure w.v.alarm
  else if a = 0x81 then pure 1
  else if a = 0x82 then pure 13
  else if a = 0x83 then Ps.readFlags c
  else if 0x84 ≤ a ∧ a ≤ 0x88 then Ps.readUserId c (a - 0x84)
  else if 0x89 ≤ a ∧ a ≤ 0x8C then DevData.getManu c (a - 0x89)
  else if 0x8D ≤ a ∧ a ≤ 0x90 then DevData.getManuSub c (a - 0x8D)
  else if a = 0x91 then do return (← get).v.nick
  else if a = 0x92 then do return wordMsb (← get).v.page
  else if a = 0x93 then do return wordLsb (← get).v.page
  else if a = 0x94 then pure c.verMajor
  else if a = 0x95 then pure c.verMinor
  else if a = 0x96 then pure c.verSubMinor
  else if a = 0x97 then pure (if c.bootLoader then c.bootAlgo else 0xFF)
  else if a = 0x98 then pure 8
  else if a = 0x99 then pure c.pagesUsed
  else if 0x9A ≤ a ∧ a ≤ 0x9D then DevData.getFam c (3 - (a - 0x9A))
  else if 0x9E ≤ a ∧ a ≤ 0xA1 then DevData.getType c (3 - (a - 0x9E))
  else if a = 0xA2 then pure 0
  else if a = 0xA3 then pure (wordMsb (DevData.firmwareDeviceCode c))
  else if a = 0xA4 then pure (wordLsb (DevData.firmwareDeviceCode c))
  else if 0xD0 ≤ a ∧ a ≤ 0xDF then DevData.getGuid c (15 - (a - 0xD0))
  else if 0xE0 ≤ a ∧ a ≤ 0xFF then DevData.getMdf c (a - 0xE0)
  else pure 0

/-- `vscp_app_reg_readRegister` -/
def appReadRegister (c : Ctx) (page : U16) (addr : U8) : M U8 := do
  let w ← get
  emit (.appRead page addr (c.appRead w.out.length w.ps page addr))
  pure (c.appRead w.out.length w.ps page addr)

/-- The bytes the application stores in `vscp_app_reg_writeRegister`: node zone and node sub-zone, which it can store only
if they are part of the persistent memory (src/vscp_ps.c:266-305). -/
def appStores (c : Ctx) (n : Nat) (page : U16) (addr v : U8) : List (Nat × U8) :=
  (match c.appZone n page addr v with
    | some z => if c.zonePs then [(Ps.addrZone c, z)] else []
    | none => []) ++
  (match c.appSubZone n page addr v with
    | some z => if c.subZonePs then [(Ps.addrSubZone c, z)] else []
    | none => [])

/-- `vscp_app_reg_writeRegister` -/
def appWriteRegister (c : Ctx) (page : U16) (addr : U8) (v : U8) : M U8 := do
  let w ← get
  emit (.appWrite page addr v (c.appWrite w.out.length w.ps page addr v))
  psWriteAll (appStores c w.out.length page addr v)
  pure (c.appWrite w.out.length w.ps page addr v)

/-- src/vscp_core.c:1823-2026 `vscp_core_readRegister` -/
def readRegister (c : Ctx) (page : U16) (addr : U8) : M U8 :=
  if page = 0 ∧ 0x80 ≤ addr.toNat ∧ addr.toNat ≤ 0xFF then readVscpRegister c addr
  else if c.dm ∧ Dm.isDecisionMatrix c page addr then Dm.readRegister c page addr
  else if c.dmNg ∧ DmNg.isDecisionMatrix c page addr then DmNg.readRegister c page addr
  else appReadRegister c page addr

/-- The case `VSCP_REG_RESTORE_STD_CFG` of src/vscp_core.c:2171-2190. -/
def writeRestoreStdCfg (c : Ctx) (value : U8) : M Unit := do
  let running ← timerRunning .reg162
  (if value = 0x55 ∧ running = false then timerStart .reg162 c.multiTimeout
   else if value = 0xAA ∧ running = true then do
     timerStop .reg162
     restoreFactoryDefaultSettings c
   else pure ())

/-- The VSCP registers, src/vscp_core.c:2047-2236: `ret` and `error` of the switch statement. -/
def writeVscpRegister (c : Ctx) (addr value : U8) : M (U8 × Bool) :=
  let a := addr.toNat
  if a = 0x83 then do
    Ps.writeFlags c value
    let r ← Ps.readFlags c
    pure (r, false)
  else if 0x84 ≤ a ∧ a ≤ 0x88 then do
    Ps.writeUserId c (a - 0x84) value
    let r ← Ps.readUserId c (a - 0x84)
    pure (r, false)
  else if a = 0x92 then do
    setV fun v => { v with page := (v.page &&& 0x00FF) ||| (value.setWidth 16 <<< 8) }
    let w ← get
    pure (wordMsb w.v.page, false)
  else if a = 0x93 then do
    setV fun v => { v with page := (v.page &&& 0xFF00) ||| value.setWidth 16 }
    let w ← get
    pure (wordLsb w.v.page, false)
  else if a = 0xA2 then do
    writeRestoreStdCfg c value
    pure (0, false)
  else pure (0, true)

/-- src/vscp_core.c:2037-2274 `vscp_core_writeRegister`: return value and `*failed` -/
def writeRegister (c : Ctx) (page : U16) (addr value : U8) : M (U8 × Bool) :=
  if page = 0 ∧ 0x80 ≤ addr.toNat ∧ addr.toNat ≤ 0xFF then writeVscpRegister c addr value
  else do
    let p ← getRegAppWriteProtect c
    (if p ≠ 0 then do
      let r ← (if c.dm ∧ Dm.isDecisionMatrix c page addr then Dm.writeRegister c page addr value
        else if c.dmNg ∧ DmNg.isDecisionMatrix c page addr then DmNg.writeRegister c page addr value
        else appWriteRegister c page addr value)
      pure (r, false)
    else pure (0, true))

/-- src/vscp_core.c:1798-1814 `vscp_core_sendRegisterReadWriteRsp` -/
def sendRegisterReadWriteRsp (c : Ctx) (addr value : U8) : M Unit := txVoid c 3 10 [addr, value]

/-! ### Protocol handlers -/

/-- Big endian 32 bit value of the data bytes 1 - 4, src/vscp_core.c:1592-1595 -/
def epochOf (m : Msg) : U32 :=
  (m.data[1].setWidth 32 <<< 24) ||| (m.data[2].setWidth 32 <<< 16) |||
  (m.data[3].setWidth 32 <<< 8) ||| m.data[4].setWidth 32

/-- src/vscp_core.c:1567-1607 `vscp_core_handleProtocolHeartbeat` -/
def handleHeartbeat (c : Ctx) (m : Msg) : M Unit :=
  whenM (0 < m.size.toNat) (do
    let crc ← Ps.readSegCrc c
    whenM (crc ≠ m.data[0]) (do
      Ps.writeSegCrc c m.data[0]
      let w ← get
      whenM (w.v.probe ≠ MASTER) (changeToStateInit c true))
    whenM (5 ≤ m.size.toNat) (do
      setV fun v => { v with epoch := epochOf m }
      whenM c.segTimeCallout (emit (.timeUpdate (epochOf m)))))

/-- src/vscp_core.c:1614-1637 `vscp_core_handleProtocolNewNodeOnline` -/
def handleNewNodeOnline (c : Ctx) (m : Msg) : M Unit := do
  let w ← get
  whenM (m.size = 1 ∧ w.v.nick = m.data[0]) (txVoid c 0 3 [])

/-- src/vscp_core.c:1642-1656 `vscp_core_handleProtocolProbeAck` -/
def handleProbeAck (c : Ctx) (m : Msg) : M Unit := do
  let w ← get
  whenM (m.size = 0 ∧ w.v.nick = m.oAddr) (changeToStateInit c true)

/-- src/vscp_core.c:1661-1690 `vscp_core_handleProtocolSetNicknameId` -/
def handleSetNicknameId (c : Ctx) (m : Msg) : M Unit := do
  let w ← get
  whenM (m.size = 2 ∧ w.v.nick = m.data[0] ∧ MASTER ≠ m.data[1]) (do
    writeNicknameId c m.data[1]
    txVoid c 7 7 [])

/-- src/vscp_core.c:1695-1768 `vscp_core_handleProtocolDropNicknameId` -/
def handleDropNicknameId (c : Ctx) (m : Msg) : M Unit := do
  let w ← get
  whenM (0 < m.size.toNat ∧ w.v.nick = m.data[0]) (
    if m.size = 1 then do
      writeNicknameId c NOT_INIT
      changeToStateReset 0
    else if m.size = 2 ∨ m.size = 3 then do
      whenM (m.data[1] &&& 0x40 ≠ 0) (do
        restoreFactoryDefaultSettings c
        whenM (m.data[1] &&& 0x20 ≠ 0) (writeNicknameId c w.v.nick))
      (if m.data[1] &&& 0x20 ≠ 0 then changeToStateReset (if m.size = 3 then m.data[2] else 0)
       else if m.data[1] &&& 0x80 ≠ 0 then do
         writeNicknameId c NOT_INIT
         changeToStateIdle c
       else do
         writeNicknameId c NOT_INIT
         changeToStateReset (if m.size = 3 then m.data[2] else 0))
    else pure ())

/-- src/vscp_core.c:1773-1790 `vscp_core_handleProtocolReadRegister` -/
def handleReadRegister (c : Ctx) (m : Msg) : M Unit := do
  let w ← get
  whenM (m.size = 2 ∧ w.v.nick = m.data[0]) (do
    let v ← readRegister c 0 m.data[1]
    sendRegisterReadWriteRsp c m.data[1] v)

/-- src/vscp_core.c:2279-2304 `vscp_core_handleProtocolWriteRegister` -/
def handleWriteRegister (c : Ctx) (m : Msg) : M Unit := do
  let w ← get
  whenM (m.size = 3 ∧ w.v.nick = m.data[0]) (do
    let r ← writeRegister c 0 m.data[1] m.data[2]
    whenM (r.2 = false) (sendRegisterReadWriteRsp c m.data[1] r.1))

/-- src/vscp_core.c:2309-2377 `vscp_core_handleProtocolEnterBootLoaderMode` -/
def handleEnterBootLoaderMode (c : Ctx) (m : Msg) : M Unit := do
  let w ← get
  whenM (m.size = 8 ∧ w.v.nick = m.data[0]) (
    if c.bootLoader then do
      let g0 ← DevData.getGuid c 15
      let g3 ← DevData.getGuid c 12
      let g5 ← DevData.getGuid c 10
      let g7 ← DevData.getGuid c 8
      (if 0xFF = c.bootAlgo ∨ c.bootAlgo ≠ m.data[1] ∨ g0 ≠ m.data[2] ∨ g3 ≠ m.data[3] ∨ g5 ≠ m.data[4] ∨
          g7 ≠ m.data[5] ∨ w.v.page ≠ mkWord m.data[6] m.data[7] then
        txVoid c 3 14 [0]
      else do
        changeToStateIdle c
        Ps.writeBootFlag c 0xBB
        emit .bootLoaderRequest)
    else txVoid c 3 14 [0])

/-- src/vscp_core.c:564-578 `vscp_core_startNodeSegmentInit` -/
def startNodeSegmentInit (c : Ctx) : M Unit := do
  let w ← get
  whenM (w.v.st ≠ .init) (changeToStateInit c true)

/-- The comparison loop of src/vscp_core.c:2411-2418; `k` is `data[0]`. -/
def guidPartEqual (c : Ctx) (m : Msg) (k : Nat) : M Bool := do
  let g0 ← DevData.getGuid c (15 - 4 * k - 0)
  let g1 ← DevData.getGuid c (15 - 4 * k - 1)
  let g2 ← DevData.getGuid c (15 - 4 * k - 2)
  let g3 ← DevData.getGuid c (15 - 4 * k - 3)
  pure (decide (m.data[1] = g0 ∧ m.data[2] = g1 ∧ m.data[3] = g2 ∧ m.data[4] = g3))

/-- src/vscp_core.c:2382-2463 `vscp_core_handleProtocolGuidDropNickname` -/
def handleGuidDropNickname (c : Ctx) (m : Msg) : M Unit :=
  whenM (m.size = 5 ∧ m.data[0].toNat < 4) (do
    whenM (m.data[0] = 0) (do
      setV fun v => { v with guidSt := 0 }
      timerStart .guidDrop c.multiTimeout)
    let running ← timerRunning .guidDrop
    (if running = false then setV fun v => { v with guidSt := 0 }
     else do
      let eq ← guidPartEqual c m m.data[0].toNat
      whenM (eq = true) (setV fun v => { v with guidSt := v.guidSt ||| (1 <<< m.data[0].toNat) })
      let w ← get
      whenM (m.data[0] = 3 ∧ w.v.guidSt = 0x0F) (do
        timerStop .guidDrop
        setV fun v => { v with guidSt := 0 }
        (if c.silent ∧ w.v.st = .startup then startNodeSegmentInit c
         else do
          writeNicknameId c NOT_INIT
          changeToStateReset 0))))

/-- The loop of src/vscp_core.c:2502-2516 from `index` on, `n` registers left.  `acc` are the bytes
`data[0 .. dataIndex - 1]` of the message. -/
def pageReadLoop (c : Ctx) (addr : U8) : (n index : Nat) → (acc : List U8) → M (List U8)
  | 0, _, acc => pure acc
  | n + 1, index, acc => do
    let w ← get
    let v ← readRegister c w.v.page (addr + BitVec.ofNat 8 index)
    (if 8 ≤ (acc ++ [v]).length then do
      txVoid c 3 26 (acc ++ [v])
      pageReadLoop c addr n (index + 1) [acc.headD 0 + 1]
    else pageReadLoop c addr n (index + 1) (acc ++ [v]))

/-- `if ((0xFF - num) < addr) num = 0xFF - addr;` -/
def limitNum (addr num : U8) : Nat := if 0xFF - num.toNat < addr.toNat then 0xFF - addr.toNat else num.toNat

/-- src/vscp_core.c:2468-2528 `vscp_core_handleProtocolPageRead` -/
def handlePageRead (c : Ctx) (m : Msg) : M Unit := do
  let w ← get
  whenM (m.size = 3 ∧ w.v.nick = m.data[0]) (do
    let acc ← pageReadLoop c m.data[1] (limitNum m.data[1] m.data[2]) 0 [0]
    whenM (1 < acc.length) (txVoid c 3 26 acc))

/-- The loop of src/vscp_core.c:2566-2573. -/
def pageWriteLoop (c : Ctx) (m : Msg) (addr : U8) : (n index : Nat) → (acc : List U8) → M (List U8)
  | 0, _, acc => pure acc
  | n + 1, index, acc => do
    let w ← get
    let x ← dataAt m (2 + index)
    let r ← writeRegister c w.v.page (addr + BitVec.ofNat 8 index) x
    pageWriteLoop c m addr n (index + 1) (acc ++ [r.1])

/-- src/vscp_core.c:2533-2582 `vscp_core_handleProtocolPageWrite` -/
def handlePageWrite (c : Ctx) (m : Msg) : M Unit := do
  let w ← get
  whenM (3 ≤ m.size.toNat ∧ w.v.nick = m.data[0]) (do
    let acc ← pageWriteLoop c m m.data[1] (limitNum m.data[1] (m.size - 2)) 0 [0]
    txFrom c w.v.nick 3 26 acc)

/-- src/vscp_core.c:2587-2614 `vscp_core_handleProtocolIncrementRegister` -/
def handleIncrementRegister (c : Ctx) (m : Msg) : M Unit := do
  let w ← get
  whenM (m.size = 2 ∧ w.v.nick = m.data[0]) (do
    let v ← readRegister c 0 m.data[1]
    let r ← writeRegister c 0 m.data[1] (v + 1)
    whenM (r.2 = false) (sendRegisterReadWriteRsp c m.data[1] r.1))

/-- src/vscp_core.c:2619-2646 `vscp_core_handleProtocolDecrementRegister` -/
def handleDecrementRegister (c : Ctx) (m : Msg) : M Unit := do
  let w ← get
  whenM (m.size = 2 ∧ w.v.nick = m.data[0]) (do
    let v ← readRegister c 0 m.data[1]
    let r ← writeRegister c 0 m.data[1] (v - 1)
    whenM (r.2 = false) (sendRegisterReadWriteRsp c m.data[1] r.1))

/-- The loops of src/vscp_core.c:2679-2695 and 2698-2714: the bytes delivered by `rd` for the given
indices are put into the messages.  State: bytes in the current message and `rowIndex`. -/
def whoLoop (c : Ctx) (rd : Nat → M U8) : List Nat → List U8 → U8 → M (List U8 × U8)
  | [], acc, row => pure (acc, row)
  | i :: is, acc, row => do
    let v ← rd i
    (if 8 ≤ (acc ++ [v]).length then do
      txVoid c 3 32 (acc ++ [v])
      whoLoop c rd is [row] (row + 1)
    else whoLoop c rd is (acc ++ [v]) row)

/-- src/vscp_core.c:2651-2728 `vscp_core_handleProtocolWhoIsThere` -/
def handleWhoIsThere (c : Ctx) (m : Msg) : M Unit := do
  let w ← get
  whenM (m.size = 1 ∧ (w.v.nick = m.data[0] ∨ NOT_INIT = m.data[0])) (do
    let s ← whoLoop c (DevData.getGuid c) ((List.range 16).map fun i => 15 - i) [0] 1
    let s ← whoLoop c (DevData.getMdf c) (List.range 32) s.1 s.2
    txVoid c 3 32 (s.1 ++ List.replicate (8 - s.1.length) 0))

/-- src/vscp_core.c:2733-2771 `vscp_core_handleProtocolGetDecisionMatrixInfo` -/
def handleGetDecisionMatrixInfo (c : Ctx) (m : Msg) : M Unit := do
  let w ← get
  whenM (m.size = 1 ∧ w.v.nick = m.data[0]) (
    txVoid c 3 34 (if c.dm then
      [Dm.getMatrixRows c, Dm.getMatrixOffset c, wordMsb (Dm.getPage c), wordLsb (Dm.getPage c)]
    else [0, 0, 0, 0]))

/-- The do-while loop of src/vscp_core.c:2849-2868.  `k` is the number of free bytes
of the message.  Result: the message bytes, `addr`, `count`, `nextPage`. -/
def extReadLoop (c : Ctx) (page : U16) : (k : Nat) → (addr : U8) → (count : U16) → (acc : List U8) →
    M (List U8 × U8 × U16 × Bool)
  | 0, addr, count, acc => pure (acc, addr, count, false)
  | k + 1, addr, count, acc => do
    let v ← readRegister c page addr
    let nextPage := decide (¬ addr.toNat < 0xFF)
    let addr' := if addr.toNat < 0xFF then addr + 1 else addr
    (if 0 < k ∧ 0 < (count - 1).toNat ∧ nextPage = false then
      extReadLoop c page k addr' (count - 1) (acc ++ [v])
    else pure (acc ++ [v], addr', count - 1, nextPage))

/-- src/vscp_core.c:2821-2893 `vscp_core_extendedPageReadRegister` on `vscp_core_extPageReadData` -/
def extendedPageReadRegister (c : Ctx) : M Unit := do
  let w ← get
  let e := w.v.ext
  whenM (0 < e.count.toNat) (do
    let r ← extReadLoop c e.page 4 e.addr e.count [e.seq, wordMsb e.page, wordLsb e.page, e.addr]
    let ok ← tx c 7 39 r.1
    whenM (ok = true) (setV fun v => { v with ext :=
      { page := if r.2.2.2 = true then v.ext.page + 1 else v.ext.page
        addr := if r.2.2.2 = true then 0 else r.2.1
        count := r.2.2.1
        seq := v.ext.seq + 1 } }))

/-- src/vscp_core.c:2776-2814 `vscp_core_handleProtocolExtendedPageReadRegister` -/
def handleExtendedPageReadRegister (c : Ctx) (m : Msg) : M Unit := do
  let w ← get
  whenM (4 ≤ m.size.toNat ∧ w.v.nick = m.data[0]) (do
    setV fun v => { v with ext :=
      { page := mkWord m.data[1] m.data[2]
        addr := m.data[3]
        count := if m.size = 5 then (if m.data[4] = 0 then 256 else m.data[4].setWidth 16) else 1
        seq := 0 } }
    extendedPageReadRegister c)

/-- The loop of src/vscp_core.c:2939-2943. -/
def extWriteLoop (c : Ctx) (m : Msg) (page : U16) (addr : U8) :
    (n index : Nat) → (acc : List U8) → M (List U8)
  | 0, _, acc => pure acc
  | n + 1, index, acc => do
    let x ← dataAt m (4 + index)
    let r ← writeRegister c page (addr + BitVec.ofNat 8 index) x
    extWriteLoop c m page addr n (index + 1) (acc ++ [r.1])

/-- src/vscp_core.c:2898-2952 `vscp_core_handleProtocolExtendedPageWriteRegister` -/
def handleExtendedPageWriteRegister (c : Ctx) (m : Msg) : M Unit := do
  let w ← get
  whenM (5 ≤ m.size.toNat ∧ w.v.nick = m.data[0]) (do
    let num : U8 := m.size - 4
    let n := if (0xFF - num.toNat) + 1 < m.data[3].toNat then (0xFF - m.data[3].toNat) + 1 else num.toNat
    let acc ← extWriteLoop c m (mkWord m.data[1] m.data[2]) m.data[3] n 0 [0, m.data[1], m.data[2], m.data[3]]
    txFrom c w.v.nick 3 39 acc)

/-- src/vscp_core.c:1333-1560 `vscp_core_handleProtocolClassType` -/
def handleProtocolClassType (c : Ctx) (m : Msg) : M Unit :=
  match m.typ.toNat with
  | 1 => whenM c.hbSegment (handleHeartbeat c m)
  | 2 => handleNewNodeOnline c m
  | 3 => handleProbeAck c m
  | 6 => handleSetNicknameId c m
  | 8 => handleDropNicknameId c m
  | 9 => handleReadRegister c m
  | 11 => handleWriteRegister c m
  | 12 => handleEnterBootLoaderMode c m
  | 23 => handleGuidDropNickname c m
  | 24 => handlePageRead c m
  | 25 => handlePageWrite c m
  | 29 => handleIncrementRegister c m
  | 30 => handleDecrementRegister c m
  | 31 => handleWhoIsThere c m
  | 33 => handleGetDecisionMatrixInfo c m
  | 37 => handleExtendedPageReadRegister c m
  | 38 => handleExtendedPageWriteRegister c m
  | _ => pure ()

/-! ### State functions -/

/-- src/vscp_core.c:752-799 `vscp_core_stateStartup` -/
def stateStartup (c : Ctx) (rx : Option Msg) : M Unit := do
  let w ← get
  if w.v.nick = NOT_INIT then
    if c.silent then
      match rx with
      | some m => whenM (m.cls = Transport.CLASS_PROTOCOL ∧ m.typ = 23) (handleGuidDropNickname c m)
      | none => pure ()
    else do
      let s ← getStartUpControl c
      whenM (s = 0x01) (changeToStateInit c true)
  else changeToStateActive c

/-- Is a PROBE ACK event from the given node received? -/
def isProbeAckOf (rx : Option Msg) (n : U8) : Bool :=
  match rx with
  | some m => decide (m.cls = Transport.CLASS_PROTOCOL ∧ m.typ = 3 ∧ m.oAddr = n)
  | none => false

/-- src/vscp_core.c:840-1004 `vscp_core_stateInit` -/
def stateInit (c : Ctx) (rx : Option Msg) : M Unit := do
  let w ← get
  match w.v.ist with
  | .probeMaster => do
    let ok ← tx c 7 2 [MASTER]
    whenM (ok = true) (do
      setV fun v => { v with ist := .probeMasterWait }
      timerStart .main c.initTimeout)
  | .probeMasterWait => do
    let running ← timerRunning .main
    if running = false then setV fun v => { v with ist := .probe, probe := c.startProbe }
    else whenM (isProbeAckOf rx MASTER) changeToStatePreActive
  | .probe => do
    let ok ← tx c 7 2 [w.v.probe]
    whenM (ok = true) (
      if w.v.probe = NOT_INIT then do
        timerStop .main
        changeToStateIdle c
      else do
        setV fun v => { v with ist := .probeWait }
        timerStart .main c.probeAckTimeout)
  | .probeWait => do
    let running ← timerRunning .main
    if running = false then do
      writeNicknameId c w.v.probe
      changeToStateActive c
    else whenM (isProbeAckOf rx w.v.probe) (do
      timerStop .main
      setV fun v => { v with probe := v.probe + 1, ist := .probe })

/-- src/vscp_core.c:1020-1067 `vscp_core_statePreActive` -/
def statePreActive (c : Ctx) (rx : Option Msg) : M Unit := do
  let running ← timerRunning .main
  if running = false then changeToStateInit c false
  else match rx with
    | some m =>
      whenM (m.cls = Transport.CLASS_PROTOCOL ∧ m.typ = 6 ∧ m.oAddr = MASTER ∧ m.data[0] = NOT_INIT) (do
        timerStop .main
        writeNicknameId c m.data[1]
        txVoid c 7 7 []
        changeToStateActive c)
    | none => pure ()

/-- src/vscp_core.c:1121-1163: processing of the received event in the active state -/
def activeEvent (c : Ctx) (m : Msg) : M Unit := do
  (if m.cls = Transport.CLASS_PROTOCOL then
    if c.protoNotify then do
      let w ← get
      emit (.protoEvent m (c.protoHandled w.out.length))
      whenM (c.protoHandled w.out.length = false) (handleProtocolClassType c m)
    else handleProtocolClassType c m
  else emit (.event m))
  whenM c.dm (Dm.executeActions c m)
  whenM c.dmNg (DmNg.executeActions c m)

/-- src/vscp_core.c:1165-1183 and `vscp_evt_information_sendNodeHeartbeat` of src/events/vscp_evt_information.c (class 20,
type 9, index 0, no additional data): the periodic heartbeat -/
def activeHeartbeat (c : Ctx) : M Unit := do
  let w ← get
  let running ← timerRunning .heartbeat
  whenM (c.hbNode ∧ w.v.hbOn ∧ running = false) (do
    (if c.customHb then emit .customHeartbeat
     else do
      let z ← DevData.getZone c
      let s ← DevData.getSubZone c
      let m ← prepareTxMessage c 20 9 3
      let _ ← sendEvent c { m with size := 3, data := bytes8 [0, z, s] })
    timerStart .heartbeat c.hbPeriod)

/-- src/vscp_core.c:1185-1190: continuation of an extended page read -/
def activeExtRead (c : Ctx) : M Bool := do
  let w ← get
  (if 0 < w.v.ext.count.toNat then do
    extendedPageReadRegister c
    pure true
  else pure false)

/-- The event of src/vscp_core.c:1121-1163, if there is one. -/
def activeEventOpt (c : Ctx) : Option Msg → M Unit
  | some m => activeEvent c m
  | none => pure ()

/-- src/vscp_core.c:1116-1193 `vscp_core_stateActive` -/
def stateActive (c : Ctx) (rx : Option Msg) : M Bool := do
  activeEventOpt c rx
  activeHeartbeat c
  let r ← activeExtRead c
  pure (rx.isSome || r)

/-- src/vscp_core.c:1263-1293 `vscp_core_stateReset` -/
def stateReset : M Unit := do
  let w ← get
  let running ← timerRunning .main
  whenM (w.v.resetReq = false ∧ running = false) (do
    setV fun v => { v with secCnt := if 0 < v.secCnt.toNat then v.secCnt - 1 else v.secCnt }
    let w ← get
    (if w.v.secCnt = 0 then do
      emit .resetRequest
      setV fun v => { v with resetReq := true }
    else timerStart .main 1000))

/-- src/vscp_core.c:486-494: the time since epoch counter -/
def epochTick : M Unit := do
  let w ← get
  let running ← timerRunning .epoch
  whenM (w.tm.ok .epoch = true ∧ running = false) (do
    setV fun v => { v with epoch := v.epoch + 1 }
    timerStart .epoch 1000)

/-- src/vscp_core.c:497-543: the state machine.  src/vscp_core.c:1222-1226 `vscp_core_stateIdle` and src/vscp_core.c:1322-1326 `vscp_core_stateError` do
nothing. -/
def dispatch (c : Ctx) (rx : Option Msg) : M Bool := do
  let w ← get
  match w.v.st with
  | .startup => do stateStartup c rx; pure false
  | .init => do stateInit c rx; pure false
  | .preActive => do statePreActive c rx; pure false
  | .active => stateActive c rx
  | .idle => pure false
  | .reset => do stateReset; pure false
  | .error => pure false

/-- src/vscp_core.c:467-549 `vscp_core_process`.  `rx` is the message the adapter delivers in this cycle. -/
def process (c : Ctx) (rx : Option Msg) : M Bool := do
  let r ← Transport.readMessage c rx
  setV fun v => { v with rx := r.getD v.rx }
  let w ← get
  whenM c.logger (Logger.handleEvent c w.v.rx)
  epochTick
  let h ← dispatch c r
  pure (r.isSome || h)

/-- src/vscp_core.c:254-388 `vscp_core_init`.  `ok` tells for every timer whether `vscp_timer_create` succeeds.
`vscp_timer_init` (user code) is taken to stop all timers; the other init functions have no effect on the model: src/vscp_data_coding.c:82-87, src/vscp_dev_data.c:84-89, src/vscp_dm_ng.c:191-196,
src/vscp_logger.c:92-97, src/vscp_util.c:88-93 and src/vscp_ps.c:83-89 do nothing, or call user code (see `Avr.ctx`, `Arm.ctx`).  The
result is TRUE for `VSCP_CORE_RET_OK`. -/
def init (c : Ctx) (ok : Tmr → Bool) : M Bool := do
  modify fun w => { w with tm := { rem := fun _ => 0, ok := ok } }
  Transport.init c
  whenM c.dm (Dm.init c)
  let n ← Ps.readNickname c
  setV fun v => { v with
    nick := n
    st := .startup
    ist := .probe
    resetReq := false
    rx := { v.rx with cls := Transport.CLASS_PROTOCOL, typ := 0, prio := 7, oAddr := NOT_INIT, hard := false } }
  emit (.lamp .blinkSlow)
  timerStart .epoch 1000
  let valid ← checkPersistentMemory c
  whenM (valid = false) (restoreFactoryDefaultSettings c)
  let good := ok .main && ok .guidDrop && ok .reg162 && ok .epoch && (!c.hbNode || ok .heartbeat)
  whenM (good = false) (changeToStateError c)
  pure good

/-! ### Remaining interface functions -/

/-- src/vscp_core.c:556-559 `vscp_core_readNicknameId` -/
def readNicknameId : M U8 := do return (← get).v.nick

/-- src/vscp_core.c:588-593 `vscp_core_setAlarm` -/
def setAlarm (value : U8) : M Unit := setV fun v => { v with alarm := v.alarm ||| value }

/-- src/vscp_core.c:603-606 `vscp_core_isActive` -/
def isActive : M Bool := do return decide ((← get).v.st = .active)

/-- src/vscp_core.c:614-617 `vscp_core_getTimeSinceEpoch` -/
def getTimeSinceEpoch : M U32 := do return (← get).v.epoch

/-- src/vscp_core.c:626-630 `vscp_core_setTimeSinceEpoch` -/
def setTimeSinceEpoch (t : U32) : M Unit := setV fun v => { v with epoch := t }

/-- src/vscp_core.c:685-697 `vscp_core_enableHeartbeat`: the parameter is not used. -/
def enableHeartbeat (_enableIt : Bool) : M Unit := setV fun v => { v with hbOn := !v.hbOn }

end Core
end Vscp
