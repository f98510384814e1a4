/-
The firmware of the ARM example (examples/arm/frdm-k64f): configuration, application, timer interrupt and main loop around the framework.  What
the CAN adapter delivers, the button, and the moments of the timer interrupt stay arbitrary.
-/
import Verif.Model.Main
import Verif.Model.Node
import Verif.Spec.Lamp

namespace Vscp.Arm
open M Driver

/-- examples/arm/frdm-k64f/vscp_frdm_k64f/vscp_user/vscp_config_overwrite.h:69-138 and
examples/arm/frdm-k64f/vscp_frdm_k64f/vscp_user/vscp_dev_data_config_overwrite.h:70-126 overwrite nothing, all definitions are in comments: everything as in
src/vscp_config.h and src/vscp_dev_data_config.h.  `sz` is `sizeof(vscp_Message)`. -/
def cfg (sz : Nat) : Cfg where
  hardCoded := false
  bootLoader := false
  hbSegment := false
  hbNode := true
  customHb := false
  silent := false
  protoNotify := false
  idleCallout := false
  errorCallout := false
  segTimeCallout := false
  loopback := false
  logger := false
  dm := true
  dmExt := false
  dmPaged := false
  dmNg := false
  loopbackNum := 4
  startProbe := 1
  initTimeout := 1000
  probeAckTimeout := 2000
  multiTimeout := 1000
  hbPeriod := 30000
  dmRows := 10
  dmPage := 1
  dmOffset := 0
  ngPage := 2
  ngSize := 80
  familyEn := true
  guidPs := false
  guidExt := false
  zonePs := false
  subZonePs := false
  manuPs := false
  manuSubPs := false
  mdfPs := false
  famPs := false
  typePs := false
  guid := #v[0, 0, 0, 0, 0, 0, 0, 0, 0, 0, 0, 0, 0, 0, 0, 0]
  zone := 0xFF
  subZone := 0xFF
  manu := 0
  manuSub := 0
  mdfUrl := []
  verMajor := 0
  verMinor := 1
  verSubMinor := 0
  famCode := 0
  devType := 0
  fwDevCode := 0
  littleEndian := true
  sizeofMsg := sz

/-- Configuration and application.  There are no application registers: examples/arm/frdm-k64f/vscp_frdm_k64f/vscp_user/vscp_app_reg.c:122-142
`vscp_app_reg_readRegister` and examples/arm/frdm-k64f/vscp_frdm_k64f/vscp_user/vscp_app_reg.c:152-172 `vscp_app_reg_writeRegister` return 0; one page is used
(examples/arm/frdm-k64f/vscp_frdm_k64f/vscp_user/vscp_app_reg.c:106-113 `vscp_app_reg_getPagesUsed`).  examples/arm/frdm-k64f/vscp_frdm_k64f/vscp_user/vscp_app_reg.c:81-96
`vscp_app_reg_init` and `vscp_app_reg_restoreFactoryDefaultSettings` do nothing, nor does examples/arm/frdm-k64f/vscp_frdm_k64f/vscp_user/vscp_action.c:82-87 `vscp_action_init`.  The callbacks of
examples/arm/frdm-k64f/vscp_frdm_k64f/vscp_user/vscp_portable.c:83-330 and examples/arm/frdm-k64f/vscp_frdm_k64f/vscp_user/vscp_action.c:96-101
`vscp_action_execute` do nothing, except that the lamp state is kept (`vscp_portable_setLampState`).  `txOk` are the results of the CAN adapter; the other results are
not used by this configuration. -/
def ctx (sz : Nat) (txOk : Nat → Bool) : Ctx where
  toCfg := cfg sz
  txOk := txOk
  appRead := fun _ _ _ _ => 0
  appWrite := fun _ _ _ _ _ => 0
  appZone := fun _ _ _ _ => none
  appSubZone := fun _ _ _ _ => none
  protoHandled := fun _ => false
  bootAlgo := 0xFF
  pagesUsed := 1
  extGuid := fun _ => 0
  garbage := fun _ => 0

/-- What the main loop does next. -/
inductive Pc
  /-- examples/arm/frdm-k64f/vscp_frdm_k64f/source/vscp_frdm_k64f.c:203: the framework -/
  | process
  /-- examples/arm/frdm-k64f/vscp_frdm_k64f/source/vscp_frdm_k64f.c:211-219: the button, in two steps (see `Button.step`) -/
  | button
  /-- examples/arm/frdm-k64f/vscp_frdm_k64f/source/vscp_frdm_k64f.c:222-229: the 250 ms period -/
  | periodic
deriving DecidableEq

/-- The firmware: the framework, the button, the software timers, the red LED with the variable of its task, and the place in the main loop. -/
structure Fw where
  w : W
  btn : Button.State
  sw : SwTimer.State 2
  led : Lamp.State
  pc : Pc

/-- examples/arm/frdm-k64f/vscp_frdm_k64f/source/vscp_frdm_k64f.c:160-190, 299-346: start with the persistent memory `ps`.  All timers are available
(examples/arm/frdm-k64f/vscp_frdm_k64f/vscp_user/vscp_timer.c:59 `VSCP_TIMER_NUM`), so that the firmware does not halt.  The LED is dark. -/
def boot (c : Ctx) (ps : Nat → U8) : Fw :=
  ⟨(stepOp c (.init fun _ => true) (powerUp ps)).2, Button.init, MainLoop.initSw 2, ⟨false, 0⟩, .process⟩

/-- examples/arm/frdm-k64f/vscp_frdm_k64f/source/vscp_frdm_k64f.c:258-288 `PIT0_IRQHandler`; `b`: is the button pressed? -/
def isr (b : Bool) (f : Fw) : Fw := { f with btn := Button.isrArm b f.btn, sw := SwTimer.process f.sw }

/-- examples/arm/frdm-k64f/vscp_frdm_k64f/source/vscp_frdm_k64f.c:200-250: a step of the main loop; `rx` is what the CAN adapter delivers.  The messages on the console are
not modelled.  The framework is not touched by the interrupt, and C59 shows that an interrupt during `swTimer_getStatus` is the same as before or behind it. -/
def step (c : Ctx) (rx : Option Msg) (f : Fw) : Fw :=
  match f.pc with
  | .process => { f with w := (stepOp c (.process rx) f.w).2, pc := .button }
  | .button =>
    let r := Button.step f.btn
    { f with
      w := if r.2 = [] then f.w else (stepOp c .startNodeSegmentInit f.w).2
      btn := r.1
      pc := if r.1.pc = .check then .periodic else .button }
  | .periodic =>
    let r := SwTimer.getStatus MainLoop.ID f.sw
    let w := if r.1 then (stepOp c (.tick 250) f.w).2 else f.w
    { f with w, sw := r.2, led := if r.1 then Lamp.process (Spec.lampAfter .off w.out) f.led else f.led, pc := .process }

/-- What can happen: the timer interrupt (every millisecond) with the state of the button, or a step of the main loop. -/
inductive Move
  | tick (pressed : Bool)
  | step (rx : Option Msg)
deriving DecidableEq

/-- The effect of a move. -/
def move (c : Ctx) (f : Fw) : Move → Fw
  | .tick b => isr b f
  | .step rx => step c rx f

/-- A history behind power on. -/
def run (c : Ctx) (l : List Move) (f : Fw) : Fw := l.foldl (move c) f

end Vscp.Arm
