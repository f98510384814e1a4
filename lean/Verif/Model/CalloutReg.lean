/-
Calls of the interface from inside of the register functions of the application and of the functions which tell it about a state: in addition to the
callbacks of `Callout.lean`, `vscp_app_reg_readRegister`, `vscp_app_reg_writeRegister`, `vscp_portable_idleStateEntered`, `vscp_portable_errorStateEntered`,
`vscp_portable_resetRequest` and `vscp_portable_bootLoaderRequest` may call the framework.  The functions which access registers are
repeated here with what the code reads again after such a call: the page selection, the data of a running extended page read; and with
what it has read before: the nickname of a response.

Simplification: the calls are made at the end of the callback, when the value is known and a node zone is stored.
-/
import Verif.Model.Callout

namespace Vscp
open M

namespace Core

/-- The branches of src/vscp_core.c:1823-2026 and 2037-2274 which end at the application: neither a VSCP register nor part of a decision matrix. -/
def isAppRegister (c : Ctx) (page : U16) (addr : U8) : Bool :=
  !decide (page = 0 ∧ 0x80 ≤ addr.toNat ∧ addr.toNat ≤ 0xFF) && !(c.dm && Dm.isDecisionMatrix c page addr) &&
    !(c.dmNg && DmNg.isDecisionMatrix c page addr)

/-- src/vscp_core.c:1823-2026 as `readRegister`; `vscp_app_reg_readRegister` calls back. -/
def readRegisterR (c : Ctx) (cb : Callbacks) (page : U16) (addr : U8) : M U8 := do
  let v ← readRegister c page addr
  whenM (isAppRegister c page addr = true) (callback c cb)
  pure v

/-- src/vscp_core.c:2037-2274 as `writeRegister`; `vscp_app_reg_writeRegister` calls back, if the write protection lets it be called. -/
def writeRegisterR (c : Ctx) (cb : Callbacks) (page : U16) (addr value : U8) : M (U8 × Bool) := do
  let r ← writeRegister c page addr value
  whenM (isAppRegister c page addr = true ∧ r.2 = false) (callback c cb)
  pure r

/-- src/vscp_core.c:1773-1790 as `handleReadRegister`, with callbacks -/
def handleReadRegisterR (c : Ctx) (cb : Callbacks) (m : Msg) : M Unit := do
  let w ← get
  whenM (m.size = 2 ∧ w.v.nick = m.data[0]) (do
    let v ← readRegisterR c cb 0 m.data[1]
    sendRegisterReadWriteRsp c m.data[1] v)

/-- src/vscp_core.c:2279-2304 as `handleWriteRegister`, with callbacks -/
def handleWriteRegisterR (c : Ctx) (cb : Callbacks) (m : Msg) : M Unit := do
  let w ← get
  whenM (m.size = 3 ∧ w.v.nick = m.data[0]) (do
    let r ← writeRegisterR c cb 0 m.data[1] m.data[2]
    whenM (r.2 = false) (sendRegisterReadWriteRsp c m.data[1] r.1))

/-- src/vscp_core.c:2503-2517 as `pageReadLoop`, with callbacks; `nick` is the `oAddr` of line 2494. -/
def pageReadLoopR (c : Ctx) (cb : Callbacks) (nick addr : U8) : (n index : Nat) → (acc : List U8) → M (List U8)
  | 0, _, acc => pure acc
  | n + 1, index, acc => do
    let w ← get
    let v ← readRegisterR c cb w.v.page (addr + BitVec.ofNat 8 index)
    (if 8 ≤ (acc ++ [v]).length then do
      txFrom c nick 3 26 (acc ++ [v])
      pageReadLoopR c cb nick addr n (index + 1) [acc.headD 0 + 1]
    else pageReadLoopR c cb nick addr n (index + 1) (acc ++ [v]))

/-- src/vscp_core.c:2468-2528 as `handlePageRead`, with callbacks -/
def handlePageReadR (c : Ctx) (cb : Callbacks) (m : Msg) : M Unit := do
  let w ← get
  whenM (m.size = 3 ∧ w.v.nick = m.data[0]) (do
    let acc ← pageReadLoopR c cb w.v.nick m.data[1] (limitNum m.data[1] m.data[2]) 0 [0]
    whenM (1 < acc.length) (txFrom c w.v.nick 3 26 acc))

/-- src/vscp_core.c:2566-2573 as `pageWriteLoop`, with callbacks -/
def pageWriteLoopR (c : Ctx) (cb : Callbacks) (m : Msg) (addr : U8) : (n index : Nat) → (acc : List U8) → M (List U8)
  | 0, _, acc => pure acc
  | n + 1, index, acc => do
    let w ← get
    let x ← dataAt m (2 + index)
    let r ← writeRegisterR c cb w.v.page (addr + BitVec.ofNat 8 index) x
    pageWriteLoopR c cb m addr n (index + 1) (acc ++ [r.1])

/-- src/vscp_core.c:2533-2582 as `handlePageWrite`, with callbacks -/
def handlePageWriteR (c : Ctx) (cb : Callbacks) (m : Msg) : M Unit := do
  let w ← get
  whenM (3 ≤ m.size.toNat ∧ w.v.nick = m.data[0]) (do
    let acc ← pageWriteLoopR c cb m m.data[1] (limitNum m.data[1] (m.size - 2)) 0 [0]
    txFrom c w.v.nick 3 26 acc)

/-- src/vscp_core.c:2587-2614 as `handleIncrementRegister`, with callbacks -/
def handleIncrementRegisterR (c : Ctx) (cb : Callbacks) (m : Msg) : M Unit := do
  let w ← get
  whenM (m.size = 2 ∧ w.v.nick = m.data[0]) (do
    let v ← readRegisterR c cb 0 m.data[1]
    let r ← writeRegisterR c cb 0 m.data[1] (v + 1)
    whenM (r.2 = false) (sendRegisterReadWriteRsp c m.data[1] r.1))

/-- src/vscp_core.c:2619-2646 as `handleDecrementRegister`, with callbacks -/
def handleDecrementRegisterR (c : Ctx) (cb : Callbacks) (m : Msg) : M Unit := do
  let w ← get
  whenM (m.size = 2 ∧ w.v.nick = m.data[0]) (do
    let v ← readRegisterR c cb 0 m.data[1]
    let r ← writeRegisterR c cb 0 m.data[1] (v - 1)
    whenM (r.2 = false) (sendRegisterReadWriteRsp c m.data[1] r.1))

/-- src/vscp_core.c:2849-2868 as `extReadLoop`, with callbacks; `data->page` of line 2851 is read again each time. -/
def extReadLoopR (c : Ctx) (cb : Callbacks) : (k : Nat) → (addr : U8) → (count : U16) → (acc : List U8) →
    M (List U8 × U8 × U16 × Bool)
  | 0, addr, count, acc => pure (acc, addr, count, false)
  | k + 1, addr, count, acc => do
    let w ← get
    let v ← readRegisterR c cb w.v.ext.page addr
    let nextPage := decide (¬ addr.toNat < 0xFF)
    let addr' := if addr.toNat < 0xFF then addr + 1 else addr
    (if 0 < k ∧ 0 < (count - 1).toNat ∧ nextPage = false then
      extReadLoopR c cb k addr' (count - 1) (acc ++ [v])
    else pure (acc ++ [v], addr', count - 1, nextPage))

/-- src/vscp_core.c:2821-2893 as `extendedPageReadRegister`, with callbacks; `oAddr` is the nickname of line 2836. -/
def extendedPageReadRegisterR (c : Ctx) (cb : Callbacks) : M Unit := do
  let w ← get
  let e := w.v.ext
  whenM (0 < e.count.toNat) (do
    let r ← extReadLoopR c cb 4 e.addr e.count [e.seq, wordMsb e.page, wordLsb e.page, e.addr]
    let ok ← Transport.writeMessage c ⟨7, Transport.CLASS_PROTOCOL, 39, w.v.nick, c.hardCoded, BitVec.ofNat 8 r.1.length, bytes8 r.1⟩
    whenM (ok = true) (setV fun v => { v with ext :=
      { page := if r.2.2.2 = true then v.ext.page + 1 else v.ext.page
        addr := if r.2.2.2 = true then 0 else r.2.1
        count := r.2.2.1
        seq := v.ext.seq + 1 } }))

/-- src/vscp_core.c:2776-2814 as `handleExtendedPageReadRegister`, with callbacks -/
def handleExtendedPageReadRegisterR (c : Ctx) (cb : Callbacks) (m : Msg) : M Unit := do
  let w ← get
  whenM (4 ≤ m.size.toNat ∧ w.v.nick = m.data[0]) (do
    setV fun v => { v with ext :=
      { page := mkWord m.data[1] m.data[2]
        addr := m.data[3]
        count := if m.size = 5 then (if m.data[4] = 0 then 256 else m.data[4].setWidth 16) else 1
        seq := 0 } }
    extendedPageReadRegisterR c cb)

/-- src/vscp_core.c:2939-2943 as `extWriteLoop`, with callbacks -/
def extWriteLoopR (c : Ctx) (cb : Callbacks) (m : Msg) (page : U16) (addr : U8) :
    (n index : Nat) → (acc : List U8) → M (List U8)
  | 0, _, acc => pure acc
  | n + 1, index, acc => do
    let x ← dataAt m (4 + index)
    let r ← writeRegisterR c cb page (addr + BitVec.ofNat 8 index) x
    extWriteLoopR c cb m page addr n (index + 1) (acc ++ [r.1])

/-- src/vscp_core.c:2898-2952 as `handleExtendedPageWriteRegister`, with callbacks -/
def handleExtendedPageWriteRegisterR (c : Ctx) (cb : Callbacks) (m : Msg) : M Unit := do
  let w ← get
  whenM (5 ≤ m.size.toNat ∧ w.v.nick = m.data[0]) (do
    let num : U8 := m.size - 4
    let n := if (0xFF - num.toNat) + 1 < m.data[3].toNat then (0xFF - m.data[3].toNat) + 1 else num.toNat
    let acc ← extWriteLoopR c cb m (mkWord m.data[1] m.data[2]) m.data[3] n 0 [0, m.data[1], m.data[2], m.data[3]]
    txFrom c w.v.nick 3 39 acc)

/-- src/vscp_core.c:1198-1217 `vscp_core_changeToStateIdle`, where it is the last call of a function: `vscp_portable_idleStateEntered` calls back. -/
def withIdle (c : Ctx) (cb : Callbacks) {α : Type} (m : M α) : M α := do
  let w ← get
  let a ← m
  let w' ← get
  whenM (w.v.st ≠ .idle ∧ w'.v.st = .idle ∧ c.idleCallout = true) (callback c cb)
  pure a

/-- src/vscp_core.c:2309-2377 as `handleEnterBootLoaderMode`; `vscp_portable_idleStateEntered` and `vscp_portable_bootLoaderRequest` (line 2355) call back. -/
def handleEnterBootLoaderModeR (c : Ctx) (cb : Callbacks) (m : Msg) : M Unit := do
  let w ← get
  whenM (m.size = 8 ∧ w.v.nick = m.data[0]) (
    if c.bootLoader then do
      let g0 ← DevData.getGuid c 15
      let g3 ← DevData.getGuid c 12
      let g5 ← DevData.getGuid c 10
      let g7 ← DevData.getGuid c 8
      (if 0xFF = c.bootAlgo ∨ c.bootAlgo ≠ m.data[1] ∨ g0 ≠ m.data[2] ∨ g3 ≠ m.data[3] ∨ g5 ≠ m.data[4] ∨
          g7 ≠ m.data[5] ∨ w.v.page ≠ mkWord m.data[6] m.data[7] then
        txVoid c 3 14 [0]
      else do
        withIdle c cb (changeToStateIdle c)
        Ps.writeBootFlag c 0xBB
        emit .bootLoaderRequest
        callback c cb)
    else txVoid c 3 14 [0])

/-- src/vscp_core.c:1333-1560 as `handleProtocolClassTypeC`, with callbacks of the register functions and of states -/
def handleProtocolClassTypeR (c : Ctx) (cb : Callbacks) (m : Msg) : M Unit :=
  match m.typ.toNat with
  | 8 => withIdle c cb (handleDropNicknameId c m)
  | 9 => handleReadRegisterR c cb m
  | 11 => handleWriteRegisterR c cb m
  | 12 => handleEnterBootLoaderModeR c cb m
  | 24 => handlePageReadR c cb m
  | 25 => handlePageWriteR c cb m
  | 29 => handleIncrementRegisterR c cb m
  | 30 => handleDecrementRegisterR c cb m
  | 37 => handleExtendedPageReadRegisterR c cb m
  | 38 => handleExtendedPageWriteRegisterR c cb m
  | _ => handleProtocolClassTypeC c cb m

/-- src/vscp_core.c:1121-1163 as `activeEventC`, with callbacks of the register functions -/
def activeEventR (c : Ctx) (cb : Callbacks) (m : Msg) : M Unit := do
  (if m.cls = Transport.CLASS_PROTOCOL then
    if c.protoNotify then do
      let w ← get
      emit (.protoEvent m (c.protoHandled w.out.length))
      callback c cb
      whenM (c.protoHandled w.out.length = false) (handleProtocolClassTypeR c cb m)
    else handleProtocolClassTypeR c cb m
  else do
    emit (.event m)
    callback c cb)
  whenM c.dm (Dm.executeActionsC c cb m)
  whenM c.dmNg (DmNg.executeActionsC c cb m)

/-- src/vscp_core.c:1185-1190 as `activeExtRead`, with callbacks -/
def activeExtReadR (c : Ctx) (cb : Callbacks) : M Bool := do
  let w ← get
  (if 0 < w.v.ext.count.toNat then do
    extendedPageReadRegisterR c cb
    pure true
  else pure false)

/-- The event of src/vscp_core.c:1121-1163, if there is one. -/
def activeEventOptR (c : Ctx) (cb : Callbacks) : Option Msg → M Unit
  | some m => activeEventR c cb m
  | none => pure ()

/-- src/vscp_core.c:1116-1193 as `stateActiveC`, with callbacks of the register functions -/
def stateActiveR (c : Ctx) (cb : Callbacks) (rx : Option Msg) : M Bool := do
  activeEventOptR c cb rx
  activeHeartbeatC c cb
  let r ← activeExtReadR c cb
  pure (rx.isSome || r)

/-- src/vscp_core.c:1263-1293 as `stateReset`; `vscp_portable_resetRequest` (line 1280) calls back. -/
def stateResetR (c : Ctx) (cb : Callbacks) : M Unit := do
  let w ← get
  stateReset
  let w' ← get
  whenM (w.v.resetReq = false ∧ w'.v.resetReq = true) (callback c cb)

/-- src/vscp_core.c:497-543 as `dispatch`, with callbacks -/
def dispatchR (c : Ctx) (cb : Callbacks) (rx : Option Msg) : M Bool := do
  let w ← get
  match w.v.st with
  | .active => stateActiveR c cb rx
  | .init => do withIdle c cb (stateInit c rx); pure false
  | .reset => do stateResetR c cb; pure false
  | _ => dispatch c rx

/-- src/vscp_core.c:254-388 as `init`; `vscp_portable_errorStateEntered` is its last call, and calls back. -/
def initR (c : Ctx) (cb : Callbacks) (ok : Tmr → Bool) : M Bool := do
  let good ← init c ok
  whenM (good = false ∧ c.errorCallout = true) (callback c cb)
  pure good

/-- src/vscp_core.c:467-549 as `process`, with callbacks -/
def processR (c : Ctx) (cb : Callbacks) (rx : Option Msg) : M Bool := do
  let r ← Transport.readMessage c rx
  setV fun v => { v with rx := r.getD v.rx }
  let w ← get
  whenM c.logger (Logger.handleEvent c w.v.rx)
  epochTick
  let h ← dispatchR c cb r
  pure (r.isSome || h)

end Core

/-- The effect of one call, if the application calls the framework in its callbacks and its register functions. -/
def stepOpR (c : Ctx) (cb : Callbacks) : Op → M Unit
  | .init ok => do let _ ← Core.initR c cb ok
  | .process rx => do let _ ← Core.processR c cb rx
  | op => stepOp c op

/-- A node in state `w` after a sequence of calls. -/
def runOpsR (c : Ctx) (cb : Callbacks) : List Op → W → W
  | [], w => w
  | op :: ops, w => runOpsR c cb ops (stepOpR c cb op w).2

end Vscp
