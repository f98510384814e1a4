/-
The world of the node model: configuration, environment, state, trace, and the state monad in which
the functions of the framework are modelled.
-/
import Verif.Model.Util

namespace Vscp

/-- src/vscp_types.h: `vscp_Message` (`vscp_RxMessage`, `vscp_TxMessage`).  `VSCP_PRIORITY` is an
enumeration with the values 0 - 7; it is kept as a byte. -/
structure Msg where
  prio : U8
  cls : U16
  typ : U8
  oAddr : U8
  hard : Bool
  size : U8
  data : Vector U8 8
deriving DecidableEq, Inhabited

/-- src/vscp_config.h and src/vscp_dev_data_config.h: one field per compile switch or constant the modelled
code depends on.  `littleEndian` and `sizeofMsg` (`sizeof(vscp_Message)`) belong to the platform. -/
structure Cfg where
  hardCoded : Bool
  bootLoader : Bool
  hbSegment : Bool
  hbNode : Bool
  customHb : Bool
  silent : Bool
  protoNotify : Bool
  idleCallout : Bool
  errorCallout : Bool
  segTimeCallout : Bool
  loopback : Bool
  logger : Bool
  dm : Bool
  dmExt : Bool
  dmPaged : Bool
  dmNg : Bool
  loopbackNum : Nat
  startProbe : U8
  initTimeout : U16
  probeAckTimeout : U16
  multiTimeout : U16
  hbPeriod : U16
  dmRows : Nat
  dmPage : Nat
  dmOffset : U8
  ngPage : Nat
  ngSize : Nat
  familyEn : Bool
  guidPs : Bool
  guidExt : Bool
  zonePs : Bool
  subZonePs : Bool
  manuPs : Bool
  manuSubPs : Bool
  mdfPs : Bool
  famPs : Bool
  typePs : Bool
  guid : Vector U8 16
  zone : U8
  subZone : U8
  manu : U32
  manuSub : U32
  mdfUrl : List U8
  verMajor : U8
  verMinor : U8
  verSubMinor : U8
  famCode : U32
  devType : U32
  fwDevCode : U16
  littleEndian : Bool
  sizeofMsg : Nat

/-- Results of the calls into code outside of the framework.  Results that may differ from call to call
are indexed by the length of the trace at the time of the call, so that quantifying over `Env` quantifies over
every behaviour of adapter and application. -/
structure Env where
  /-- result of `vscp_tp_adapter_writeMessage` -/
  txOk : Nat → Bool
  /-- result of `vscp_app_reg_readRegister`; may depend on the persistent memory -/
  appRead : Nat → (Nat → U8) → U16 → U8 → U8
  /-- result of `vscp_app_reg_writeRegister` -/
  appWrite : Nat → (Nat → U8) → U16 → U8 → U8 → U8
  /-- node zone and node sub-zone the application stores in `vscp_app_reg_writeRegister` by `vscp_ps_writeNodeZone` and
  `vscp_ps_writeNodeSubZone` (src/vscp_ps.h declares them for the application, the AVR example uses them), if it does -/
  appZone : Nat → U16 → U8 → U8 → Option U8
  appSubZone : Nat → U16 → U8 → U8 → Option U8
  /-- result of `vscp_portable_provideProtocolEvent` -/
  protoHandled : Nat → Bool
  /-- `vscp_portable_getBootLoaderAlgorithm` -/
  bootAlgo : U8
  /-- `vscp_app_reg_getPagesUsed` -/
  pagesUsed : U8
  /-- `vscp_portable_readGUID` -/
  extGuid : U8 → U8
  /-- uninitialised stack memory (the rule buffer of the decision matrix NG) -/
  garbage : Nat → U8

/-- Configuration and environment. -/
structure Ctx extends Cfg, Env

/-- src/vscp_core.c:92-102 `STATE` -/
inductive St
  | startup | init | preActive | active | idle | reset | error
deriving DecidableEq

/-- src/vscp_core.c:105-112 `INIT_STATE` -/
inductive ISt
  | probeMaster | probeMasterWait | probe | probeWait
deriving DecidableEq

/-- vscp_portable.h `VSCP_LAMP_STATE` -/
inductive Lamp
  | off | on | blinkSlow | blinkFast
deriving DecidableEq

/-- The five timers of src/vscp_core.c:194-204, 218. -/
inductive Tmr
  | main | guidDrop | reg162 | epoch | heartbeat
deriving DecidableEq

/-- Calls into code outside of the framework, in the order in which they happen. -/
inductive Out
  /-- `vscp_tp_adapter_writeMessage(m)` returned `ok` -/
  | tx (m : Msg) (ok : Bool)
  /-- one byte written to the persistent memory -/
  | psW (addr : Nat) (v : U8)
  | lamp (s : Lamp)
  /-- `vscp_app_reg_readRegister` / `vscp_app_reg_writeRegister` and the returned value -/
  | appRead (page : U16) (addr : U8) (ret : U8)
  | appWrite (page : U16) (addr : U8) (v : U8) (ret : U8)
  /-- `vscp_portable_provideEvent` -/
  | event (m : Msg)
  /-- `vscp_portable_provideProtocolEvent` -/
  | protoEvent (m : Msg) (handled : Bool)
  /-- `vscp_action_execute` -/
  | action (id par : U8) (m : Msg)
  | resetRequest
  | bootLoaderRequest
  | idleEntered
  | errorEntered
  /-- `vscp_app_reg_restoreFactoryDefaultSettings` -/
  | appRestore
  /-- `vscp_portable_restoreFactoryDefaultSettings` -/
  | portRestore
  /-- `vscp_portable_updateTimeSinceEpoch` -/
  | timeUpdate (t : U32)
  /-- `vscp_portable_sendNodeHeartbeatEvent` -/
  | customHeartbeat
deriving DecidableEq

/-- src/vscp_core.c:118-125 `ExtPageRead` -/
structure ExtPageRead where
  page : U16
  addr : U8
  count : U16
  seq : U8
deriving DecidableEq

/-- The static variables of src/vscp_core.c:180-238 (timer ids: see `Timers`) and the static local variable
`status` of `vscp_core_handleProtocolGuidDropNickname` (line 2388).  `vscp_core_rxMessageValid` is not kept: it is
set by every call of `vscp_core_process` before it is used, and it is passed to the functions as
the presence of the received message. -/
structure Vars where
  nick : U8
  st : St
  ist : ISt
  rx : Msg
  secCnt : U8
  probe : U8
  epoch : U32
  hbOn : Bool
  alarm : U8
  page : U16
  resetReq : Bool
  ext : ExtPageRead
  guidSt : U8

/-- The timer driver as the core sees it: remaining milliseconds (0: not running) and whether
the timer could be created. -/
structure Timers where
  rem : Tmr → U16
  ok : Tmr → Bool

/-- src/vscp_transport.c:74-82 -/
structure Transport where
  txErr : U8
  lb : Util.CyclicBuffer Msg

/-- src/vscp_logger.c:76-79 -/
structure LoggerVars where
  on : Bool
  level : U8

/-- src/vscp_dm.c:176, src/vscp_dm_ng.c:172-178 (the error variables of lines 158-164 are written only) -/
structure DmVars where
  idx : U8
  ngCnt : U8
  ngIdx : U16

/-- State of the node, trace, and a sticky flag for undefined behaviour. -/
structure W where
  v : Vars
  ps : Nat → U8
  tm : Timers
  tp : Transport
  lg : LoggerVars
  dm : DmVars
  out : List Out
  ub : Bool

/-- State transformers. -/
def M (α : Type) := W → α × W

namespace M

instance : Monad M where
  pure a := fun w => (a, w)
  bind m f := fun w => f (m w).1 (m w).2

@[simp] theorem pure_run {α} (a : α) (w : W) : (pure a : M α) w = (a, w) := (rfl)
@[simp] theorem bind_run {α β} (m : M α) (f : α → M β) (w : W) :
    (m >>= f) w = f (m w).1 (m w).2 := (rfl)
@[simp] theorem map_run {α β} (f : α → β) (m : M α) (w : W) :
    (f <$> m) w = (f (m w).1, (m w).2) := (rfl)
@[simp] theorem ite_run {α} (p : Prop) {_ : Decidable p} (a b : M α) (w : W) :
    (if p then a else b) w = if p then a w else b w := by split <;> rfl

/-- The current world. -/
def get : M W := fun w => (w, w)
/-- Update of the world. -/
def modify (f : W → W) : M Unit := fun w => ((), f w)
/-- Update of the core variables. -/
def setV (f : Vars → Vars) : M Unit := fun w => ((), { w with v := f w.v })

@[simp] theorem get_run (w : W) : get w = (w, w) := (rfl)
@[simp] theorem modify_run (f : W → W) (w : W) : modify f w = ((), f w) := (rfl)
@[simp] theorem setV_run (f : Vars → Vars) (w : W) : setV f w = ((), { w with v := f w.v }) := (rfl)

end M

open M

/-- A call into code outside of the framework. -/
def emit (o : Out) : M Unit := fun w => ((), { w with out := w.out ++ [o] })

@[simp] theorem emit_run (o : Out) (w : W) : emit o w = ((), { w with out := w.out ++ [o] }) := (rfl)

/-- Undefined behaviour happened. -/
def markUb : M Unit := fun w => ((), { w with ub := true })

@[simp] theorem markUb_run (w : W) : markUb w = ((), { w with ub := true }) := (rfl)

/-- Read `msg->data[i]` with a dynamic index: outside of the array it is undefined behaviour. -/
def dataAt (m : Msg) (i : Nat) : M U8 :=
  match m.data[i]? with
  | some b => pure b
  | none => do markUb; pure 0

/-! ### Timer driver interface (vscp_timer.h)

Between two calls of the core the time passes in `Op.tick`; inside of one call no time passes. -/

/-- vscp_timer.h `vscp_timer_start`; without effect for an invalid timer id. -/
def timerStart (t : Tmr) (ms : U16) : M Unit := fun w =>
  ((), if w.tm.ok t then { w with tm := { w.tm with rem := fun x => if x = t then ms else w.tm.rem x } }
       else w)

/-- vscp_timer.h `vscp_timer_stop` -/
def timerStop (t : Tmr) : M Unit := fun w =>
  ((), if w.tm.ok t then { w with tm := { w.tm with rem := fun x => if x = t then 0 else w.tm.rem x } }
       else w)

/-- vscp_timer.h `vscp_timer_getStatus`: is the timer running? -/
def timerRunning (t : Tmr) : M Bool := fun w => (w.tm.ok t && w.tm.rem t != 0, w)

/-! ### Persistent memory access interface (vscp_ps_access.h) -/

/-- `vscp_ps_access_read8` -/
def psRead8 (a : Nat) : M U8 := fun w => (w.ps a, w)

/-- `vscp_ps_access_write8` -/
def psWrite8 (a : Nat) (b : U8) : M Unit := fun w =>
  ((), { w with ps := fun x => if x = a then b else w.ps x, out := w.out ++ [.psW a b] })

/-- `vscp_ps_access_writeMultiple`, byte by byte in ascending order. -/
def psWriteMultiple (a : Nat) : List U8 → M Unit
  | [] => pure ()
  | b :: bs => do psWrite8 a b; psWriteMultiple (a + 1) bs

/-- Several calls of `vscp_ps_access_write8`. -/
def psWriteAll : List (Nat × U8) → M Unit
  | [] => pure ()
  | x :: l => do psWrite8 x.1 x.2; psWriteAll l

/-- `vscp_ps_access_readMultiple` -/
def psReadMultiple (a n : Nat) : M (List U8) := fun w => ((List.range n).map fun i => w.ps (a + i), w)

@[simp] theorem timerRunning_run (t : Tmr) (w : W) :
    timerRunning t w = (w.tm.ok t && w.tm.rem t != 0, w) := (rfl)
@[simp] theorem timerStart_run (t : Tmr) (ms : U16) (w : W) : timerStart t ms w =
  ((), if w.tm.ok t then { w with tm := { w.tm with rem := fun x => if x = t then ms else w.tm.rem x } }
       else w) := (rfl)
@[simp] theorem timerStop_run (t : Tmr) (w : W) : timerStop t w =
  ((), if w.tm.ok t then { w with tm := { w.tm with rem := fun x => if x = t then 0 else w.tm.rem x } }
       else w) := (rfl)
@[simp] theorem psRead8_run (a : Nat) (w : W) : psRead8 a w = (w.ps a, w) := (rfl)
@[simp] theorem psWrite8_run (a : Nat) (b : U8) (w : W) : psWrite8 a b w =
  ((), { w with ps := fun x => if x = a then b else w.ps x, out := w.out ++ [.psW a b] }) := (rfl)
@[simp] theorem psReadMultiple_run (a n : Nat) (w : W) :
    psReadMultiple a n w = ((List.range n).map fun i => w.ps (a + i), w) := (rfl)

/-- `if (p) { m }` -/
def whenM (p : Prop) [Decidable p] (m : M Unit) : M Unit := if p then m else pure ()

@[simp] theorem whenM_run (p : Prop) {_ : Decidable p} (m : M Unit) (w : W) :
    whenM p m w = if p then m w else ((), w) := by
  simp only [whenM, M.ite_run, M.pure_run]

/-- `for(index = 0; index < n; ++index) f(index);` -/
def forUp (f : Nat → M Unit) : Nat → M Unit
  | 0 => pure ()
  | n + 1 => do forUp f n; f n

/-- `VSCP_UTIL_WORD_MSB`, src/vscp_util.h:87 -/
def wordMsb (x : U16) : U8 := (x >>> 8).setWidth 8
/-- `VSCP_UTIL_WORD_LSB`, src/vscp_util.h:90 -/
def wordLsb (x : U16) : U8 := x.setWidth 8
/-- `(((uint16_t)hi) << 8) | lo` -/
def mkWord (hi lo : U8) : U16 := (hi.setWidth 16 <<< 8) ||| lo.setWidth 16

/-- Payload with the given leading bytes; the remaining bytes of the C array are not
initialised and not part of the event, they are modelled as 0. -/
def bytes8 (l : List U8) : Vector U8 8 := Vector.ofFn fun i => l.getD i 0

end Vscp
