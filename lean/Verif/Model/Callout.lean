/-
Calls of the interface from inside of callbacks.  `Node.lean` takes the application not to call the framework from inside
of a callback; here it may, in the callbacks which exist for the application to react to something:
`vscp_portable_provideEvent`, `vscp_portable_provideProtocolEvent`, `vscp_action_execute`,
`vscp_portable_updateTimeSinceEpoch` and `vscp_portable_sendNodeHeartbeatEvent`.
-/
import Verif.Model.Node

namespace Vscp
open M

/-- What the application does in its callbacks: interface calls, which may depend on everything which happened before (the trace is
part of the state), so that quantifying over `Callbacks` quantifies over every behaviour. -/
abbrev Callbacks := W → List Op

/-- Calls which are possible in a callback: all but `vscp_core_init` and `vscp_core_process`; a callback takes no time. -/
def Op.inCallback : Op → Prop
  | .init _ => False
  | .process _ => False
  | .tick _ => False
  | _ => True

/-- The application runs in a callback which has just been recorded in the trace. -/
def callback (c : Ctx) (cb : Callbacks) : M Unit := fun w => ((), runOps c (cb w) w)

namespace Dm

/-- src/vscp_dm.c:342-580 as `execRow`; `vscp_action_execute` (lines 566-577) calls back. -/
def execRowC (c : Ctx) (cb : Callbacks) (m : Msg) (i : Nat) : M Unit := do
  if (← isRowEnabled c.toCfg i) then do
    let row ← readRow c.toCfg i
    let ext ← (if c.dmExt then readExtRow c.toCfg i else pure (extRowOfBytes []))
    let nodeZone ← DevData.getZone c.toCfg
    let nodeSubZone ← DevData.getSubZone c.toCfg
    whenM (zoneOutside row m) markUb
    match rowAction c.toCfg nodeZone nodeSubZone row ext m with
    | some (a, p) => do
      emit (.action a p m)
      callback c cb
    | none => pure ()
  else pure ()

/-- src/vscp_dm.c:332-583 as `executeActions`, with callbacks -/
def executeActionsC (c : Ctx) (cb : Callbacks) (m : Msg) : M Unit :=
  if c.dmRows ≤ 255 then forUp (execRowC c cb m) c.dmRows else markUb

end Dm

namespace DmNg

/-- src/vscp_dm_ng.c:326-371 as `execRule`; `vscp_action_execute` (line 362) calls back. -/
def execRuleC (c : Ctx) (cb : Callbacks) (rule : List U8) (m : Msg) : M Unit :=
  match rule[0]?, rule[1]?, rule[2]? with
  | some ruleSize, some actionId, some actionPar =>
    if 6 ≤ ruleSize.toNat then
      if actionId ≠ 0 then
        match getDecisionResult rule (ruleSize.toNat - 3) m with
        | some true => do
          emit (.action actionId actionPar m)
          callback c cb
        | some false => pure ()
        | none => markUb
      else pure ()
    else pure ()
  | _, _, _ => markUb

/-- src/vscp_dm_ng.c:324-372 as `rulesLoop`, with callbacks -/
def rulesLoopC (c : Ctx) (cb : Callbacks) (m : Msg) : Nat → List U8 → M Unit
  | 0, _ => markUb
  | n + 1, buf => do
    execRuleC c cb buf m
    match (← getNextRule c.toCfg buf) with
    | some buf => rulesLoopC c cb m n buf
    | none => pure ()

/-- src/vscp_dm_ng.c:308-375 as `executeActions`, with callbacks -/
def executeActionsC (c : Ctx) (cb : Callbacks) (m : Msg) : M Unit := do
  match (← getFirstRule c.toCfg ((List.range RULE_MAX_SIZE).map c.garbage)) with
  | some buf => rulesLoopC c cb m 256 buf
  | none => pure ()

end DmNg

namespace Core

/-- src/vscp_core.c:1333-1560 as `handleProtocolClassType`.  The callback `vscp_portable_updateTimeSinceEpoch`
(line 1600) is the last call of its handler. -/
def handleProtocolClassTypeC (c : Ctx) (cb : Callbacks) (m : Msg) : M Unit := do
  handleProtocolClassType c m
  whenM (m.typ = 1 ∧ c.hbSegment = true ∧ 5 ≤ m.size.toNat ∧ c.segTimeCallout = true) (callback c cb)

/-- src/vscp_core.c:1121-1163 as `activeEvent`; `vscp_portable_provideProtocolEvent` (line 1131) and
`vscp_portable_provideEvent` (line 1145) call back. -/
def activeEventC (c : Ctx) (cb : Callbacks) (m : Msg) : M Unit := do
  (if m.cls = Transport.CLASS_PROTOCOL then
    if c.protoNotify then do
      let w ← get
      emit (.protoEvent m (c.protoHandled w.out.length))
      callback c cb
      whenM (c.protoHandled w.out.length = false) (handleProtocolClassTypeC c cb m)
    else handleProtocolClassTypeC c cb m
  else do
    emit (.event m)
    callback c cb)
  whenM c.dm (Dm.executeActionsC c cb m)
  whenM c.dmNg (DmNg.executeActionsC c cb m)

/-- src/vscp_core.c:1165-1183 as `activeHeartbeat`; `vscp_portable_sendNodeHeartbeatEvent` (line 1174) calls back. -/
def activeHeartbeatC (c : Ctx) (cb : Callbacks) : M Unit := do
  let w ← get
  let running ← timerRunning .heartbeat
  whenM (c.hbNode ∧ w.v.hbOn ∧ running = false) (do
    (if c.customHb then do
      emit .customHeartbeat
      callback c cb
     else do
      let z ← DevData.getZone c
      let s ← DevData.getSubZone c
      let m ← prepareTxMessage c 20 9 3
      let _ ← sendEvent c { m with size := 3, data := bytes8 [0, z, s] })
    timerStart .heartbeat c.hbPeriod)

/-- The event of src/vscp_core.c:1121-1163, if there is one. -/
def activeEventOptC (c : Ctx) (cb : Callbacks) : Option Msg → M Unit
  | some m => activeEventC c cb m
  | none => pure ()

/-- src/vscp_core.c:1116-1193 as `stateActive`, with callbacks -/
def stateActiveC (c : Ctx) (cb : Callbacks) (rx : Option Msg) : M Bool := do
  activeEventOptC c cb rx
  activeHeartbeatC c cb
  let r ← activeExtRead c
  pure (rx.isSome || r)

/-- src/vscp_core.c:497-543 as `dispatch`, with callbacks -/
def dispatchC (c : Ctx) (cb : Callbacks) (rx : Option Msg) : M Bool := do
  let w ← get
  match w.v.st with
  | .active => stateActiveC c cb rx
  | _ => dispatch c rx

/-- src/vscp_core.c:467-549 as `process`, with callbacks -/
def processC (c : Ctx) (cb : Callbacks) (rx : Option Msg) : M Bool := do
  let r ← Transport.readMessage c rx
  setV fun v => { v with rx := r.getD v.rx }
  let w ← get
  whenM c.logger (Logger.handleEvent c w.v.rx)
  epochTick
  let h ← dispatchC c cb r
  pure (r.isSome || h)

end Core

/-- The effect of one call, if the application calls the framework in its callbacks. -/
def stepOpC (c : Ctx) (cb : Callbacks) : Op → M Unit
  | .process rx => do let _ ← Core.processC c cb rx
  | op => stepOp c op

/-- A node in state `w` after a sequence of calls. -/
def runOpsC (c : Ctx) (cb : Callbacks) : List Op → W → W
  | [], w => w
  | op :: ops, w => runOpsC c cb ops (stepOpC c cb op w).2

end Vscp
