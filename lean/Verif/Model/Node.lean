/-
A node as its user sees it: the calls of the interface of the framework and the passing of time, in any order.
-/
import Verif.Model.Core

namespace Vscp
open M

/-- Calls of the interface functions, and time passing between them.

The application is taken not to call the framework from inside of a callback, and timers advance
only between calls (the framework is not reentrant). -/
inductive Op
  /-- `vscp_core_init`; `ok` tells which timers can be created -/
  | init (ok : Tmr → Bool)
  /-- `vscp_core_process`; `rx` is what the transport adapter delivers -/
  | process (rx : Option Msg)
  /-- `ms` milliseconds pass -/
  | tick (ms : Nat)
  /-- `vscp_core_startNodeSegmentInit` -/
  | startNodeSegmentInit
  /-- `vscp_core_restoreFactoryDefaultSettings` -/
  | restore
  /-- `vscp_core_setAlarm` -/
  | setAlarm (v : U8)
  /-- `vscp_core_setTimeSinceEpoch` -/
  | setTime (t : U32)
  /-- `vscp_core_enableHeartbeat` -/
  | enableHeartbeat (b : Bool)
  /-- `vscp_core_sendEvent` -/
  | sendEvent (m : Msg)
  /-- `vscp_transport_getTransmitErrors` -/
  | getTransmitErrors
  /-- `vscp_logger_enable` -/
  | loggerEnable (b : Bool)
  /-- `vscp_logger_setLogLevel` -/
  | loggerLevel (l : U8)
  /-- `vscp_logger_log` -/
  | log (id level : U8) (msg : List U8)
  /-- `vscp_logger_logUInt32` -/
  | logUInt32 (id level : U8) (x : U32)

/-- The timer driver counts down; a timer which reaches 0 is stopped. -/
def tickTimers (ms : Nat) : M Unit :=
  modify fun w => { w with tm := { w.tm with rem := fun t => BitVec.ofNat 16 ((w.tm.rem t).toNat - ms) } }

/-- The effect of one call. -/
def stepOp (c : Ctx) : Op → M Unit
  | .init ok => do let _ ← Core.init c ok
  | .process rx => do let _ ← Core.process c rx
  | .tick ms => tickTimers ms
  | .startNodeSegmentInit => Core.startNodeSegmentInit c
  | .restore => Core.restoreFactoryDefaultSettings c
  | .setAlarm v => Core.setAlarm v
  | .setTime t => Core.setTimeSinceEpoch t
  | .enableHeartbeat b => Core.enableHeartbeat b
  | .sendEvent m => do let _ ← Core.sendEvent c m
  | .getTransmitErrors => do let _ ← Transport.getTransmitErrors
  | .loggerEnable b => Logger.enable b
  | .loggerLevel l => Logger.setLogLevel l
  | .log id level msg => Logger.log c id level msg
  | .logUInt32 id level x => Logger.logUInt32 c id level x

/-- A node in state `w` after a sequence of calls. -/
def runOps (c : Ctx) : List Op → W → W
  | [], w => w
  | op :: ops, w => runOps c ops (stepOp c op w).2

/-- src/vscp_core.c:180-238, src/vscp_transport.c:74-82, src/vscp_logger.c:76-79, src/vscp_dm.c:176,
src/vscp_dm_ng.c:172-178: the static variables at power up, with the given contents of the persistent
memory.  Memory without initialiser is zero. -/
def powerUp (ps : Nat → U8) : W where
  v := { nick := 0xFF, st := .startup, ist := .probe, rx := default, secCnt := 0, probe := 0xFF, epoch := 0,
         hbOn := true, alarm := 0, page := 0, resetReq := false, ext := ⟨0, 0, 0, 0⟩, guidSt := 0 }
  ps := ps
  tm := { rem := fun _ => 0, ok := fun _ => false }
  tp := { txErr := 0, lb := { storage := [], elemSize := 0, num := 0, readIndex := 0, writeIndex := 0 } }
  lg := { on := false, level := 0 }
  dm := { idx := 0, ngCnt := 0, ngIdx := 0 }
  out := []
  ub := false

end Vscp
