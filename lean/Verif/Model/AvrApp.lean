/-
The application of the AVR example (examples/avr/at90can): configuration, application registers, actions, and the main loop around
the framework.  The framework runs with this configuration and this application; what the drivers deliver (results of the CAN
driver, received events, button, time) stays arbitrary.
-/
import Verif.Model.Callout
import Verif.Model.EventTable
import Verif.Model.Main
import Verif.Spec.Lamp

namespace Vscp.Avr
open M

/-! ### Configuration -/

/-- examples/avr/at90can/vscp_user/vscp_config_overwrite.h:68, 113-117, examples/avr/at90can/vscp_user/vscp_dev_data_config_overwrite.h:70-126;
everything else as in src/vscp_config.h and src/vscp_dev_data_config.h.  `sz` is `sizeof(vscp_Message)`. -/
def cfg (sz : Nat) : Cfg where
  hardCoded := false
  bootLoader := false
  hbSegment := false
  hbNode := true
  customHb := false
  silent := false
  protoNotify := false
  idleCallout := false
  errorCallout := false
  segTimeCallout := false
  loopback := false
  logger := false
  dm := true
  dmExt := false
  dmPaged := false
  dmNg := false
  loopbackNum := 4
  startProbe := 1
  initTimeout := 1000
  probeAckTimeout := 2000
  multiTimeout := 1000
  hbPeriod := 30000
  dmRows := 2
  dmPage := 1
  dmOffset := 0
  ngPage := 2
  ngSize := 80
  familyEn := true
  guidPs := false
  guidExt := false
  zonePs := true
  subZonePs := true
  manuPs := false
  manuSubPs := false
  mdfPs := false
  famPs := false
  typePs := false
  guid := #v[0, 0, 0, 0, 0, 0, 0, 0, 0, 0, 0, 0, 0, 0, 0, 1]
  zone := 0xFF
  subZone := 0xFF
  manu := 0
  manuSub := 0
  -- "www.blue-andi.de/vscp/exp01.xml"
  mdfUrl := [119, 119, 119, 46, 98, 108, 117, 101, 45, 97, 110, 100, 105, 46, 100, 101, 47, 118, 115, 99, 112, 47,
    101, 120, 112, 48, 49, 46, 120, 109, 108]
  verMajor := 0
  verMinor := 2
  verSubMinor := 2
  famCode := 0
  devType := 0
  fwDevCode := 0
  littleEndian := true
  sizeofMsg := sz

/-! ### Application registers -/

/-- examples/avr/at90can/vscp_user/vscp_app_reg.c:132-163 `vscp_app_reg_readRegister` -/
def readRegister (sz : Nat) (ps : Nat → U8) (page : U16) (addr : U8) : U8 :=
  if page = 0 then
    if addr.toNat ≤ 0x7F then
      if addr = 0 then ps (Ps.addrZone (cfg sz))
      else if addr = 1 then ps (Ps.addrSubZone (cfg sz))
      else 0
    else 0
  else 0

/-- examples/avr/at90can/vscp_user/vscp_app_reg.c:173-206 `vscp_app_reg_writeRegister`: the node zone it stores, if it does -/
def writeZone (page : U16) (addr v : U8) : Option U8 :=
  if page = 0 ∧ addr.toNat ≤ 0x7F ∧ addr = 0 then some v else none

/-- examples/avr/at90can/vscp_user/vscp_app_reg.c:173-206 `vscp_app_reg_writeRegister`: the node sub-zone it stores, if it does -/
def writeSubZone (page : U16) (addr v : U8) : Option U8 :=
  if page = 0 ∧ addr.toNat ≤ 0x7F ∧ addr = 1 then some v else none

/-- examples/avr/at90can/vscp_user/vscp_app_reg.c:173-206 `vscp_app_reg_writeRegister`: the value read back.  The memory is taken to keep
what was written (examples/avr/at90can/vscp_user/vscp_ps_access.c, see C80). -/
def writeRegister (page : U16) (addr v : U8) : U8 :=
  if page = 0 then
    if addr.toNat ≤ 0x7F then
      if addr = 0 then v
      else if addr = 1 then v
      else 0
    else 0
  else 0

/-- examples/avr/at90can/vscp_user/vscp_app_reg.c:115-123 `vscp_app_reg_getPagesUsed` -/
def pagesUsed : U8 := 1 + 1

/-- The configuration and the application of the AVR example.  `e` are the results of everything else (of these only those of
the CAN driver are used by this configuration).  examples/avr/at90can/vscp_user/vscp_portable.c:85-100 `vscp_portable_init` and `vscp_portable_restoreFactoryDefaultSettings`,
examples/avr/at90can/vscp_user/vscp_portable.c:200-205 `vscp_portable_provideEvent`, examples/avr/at90can/vscp_user/vscp_action.c:92-97 `vscp_action_init`,
examples/avr/at90can/vscp_user/vscp_app_reg.c:88-105 `vscp_app_reg_init` and `vscp_app_reg_restoreFactoryDefaultSettings`,
examples/avr/at90can/vscp_user/vscp_ps_access.c:85-90 `vscp_ps_access_init` do nothing; examples/avr/at90can/vscp_user/vscp_portable.c:107-122
`vscp_portable_setLampState` and `vscp_portable_getLampState` keep the lamp state (`Spec.lampAfter`).  The other callbacks of this file are not compiled. -/
def ctx (sz : Nat) (e : Env) : Ctx where
  toCfg := cfg sz
  txOk := e.txOk
  appRead := fun _ ps page addr => readRegister sz ps page addr
  appWrite := fun _ _ page addr v => writeRegister page addr v
  appZone := fun _ page addr v => writeZone page addr v
  appSubZone := fun _ page addr v => writeSubZone page addr v
  protoHandled := e.protoHandled
  bootAlgo := 0xFF
  pagesUsed := pagesUsed
  extGuid := e.extGuid
  garbage := e.garbage

/-! ### Actions -/

/-- src/events/vscp_evt_information.c:183-202 `vscp_evt_information_sendOn` -/
def fnOn : Events.Fn := ⟨"information_sendOn", 20, 3, [.u8, .u8, .u8],
  [.byte 0 0 0, .size 1, .byte 1 1 0, .size 1, .byte 2 2 0, .size 1]⟩
/-- src/events/vscp_evt_information.c:213-232 `vscp_evt_information_sendOff` -/
def fnOff : Events.Fn := ⟨"information_sendOff", 20, 4, [.u8, .u8, .u8],
  [.byte 0 0 0, .size 1, .byte 1 1 0, .size 1, .byte 2 2 0, .size 1]⟩

/-- The arguments in examples/avr/at90can/vscp_user/vscp_action.c:116, 122: index 0, all zones, all sub-zones -/
def infoArgs : Events.Args := ⟨fun i => if i = 0 then 0 else 0xFF, fun _ => false, fun _ _ => 0⟩

/-- The event sent by `vscp_evt_information_sendOn(0, 0xff, 0xff)` (type 3) and `vscp_evt_information_sendOff(0, 0xff, 0xff)` (type 4) of a
node with nickname `nick`; `stack` are the bytes of the uninitialised message.  See `C88_info`. -/
def infoMsg (nick typ : U8) (stack : Vector U8 8) : Msg :=
  ⟨3, 20, typ, nick, false, 3, ((stack.set 0 0).set 1 0xFF).set 2 0xFF⟩

/-- examples/avr/at90can/vscp_user/vscp_action.c:106-130 `vscp_action_execute`, what it calls of the framework.  The other callbacks of
examples/avr/at90can/vscp_user/vscp_portable.c do nothing.  `stack` are the bytes on the stack, which may differ from call to call. -/
def cb (stack : Nat → Vector U8 8) : Callbacks := fun w =>
  match w.out.getLast? with
  | some (.action a _ _) =>
    if a = 1 then [.sendEvent (infoMsg w.v.nick 3 (stack w.out.length))]
    else if a = 2 then [.sendEvent (infoMsg w.v.nick 4 (stack w.out.length))]
    else []
  | _ => []

/-- examples/avr/at90can/vscp_user/vscp_action.c:106-130 `vscp_action_execute`: the status LED after the calls `t`. -/
def ledAfter : Bool → List Out → Bool
  | b, [] => b
  | b, .action a _ _ :: t => ledAfter (if a = 1 then true else if a = 2 then false else b) t
  | b, _ :: t => ledAfter b t

/-! ### Main loop -/

/-- The firmware: the calls of former runs (before a reboot) and their number, the framework, the status LED with the variable of its
task, and `lastSegInitButtonState`. -/
structure Fw where
  past : List Out
  life : Nat
  w : W
  led : Driver.Lamp.State
  last : Bool

/-- What the hardware delivers in a pass of the main loop: the received event, the two values read from `main_isInitButtonPressed`, and the
status of the 250 ms timer. -/
structure In where
  rx : Option Msg
  pressed : Bool
  pressed' : Bool
  due : Bool

/-- A pass of the main loop, or power off and on again between two passes. -/
inductive Move
  | pass (i : In)
  | power

/-- What the surroundings of the firmware do in run `n`: results of the drivers and bytes on the stack. -/
structure Surr where
  sz : Nat
  env : Nat → Env
  stack : Nat → Nat → Vector U8 8

/-- Framework and application in run `n`. -/
abbrev Surr.ctx (s : Surr) (n : Nat) : Ctx := Avr.ctx s.sz (s.env n)
/-- Callbacks in run `n`. -/
abbrev Surr.cb (s : Surr) (n : Nat) : Callbacks := Avr.cb (s.stack n)

/-- examples/avr/at90can/main.c:142-175, 232-282: start with the persistent memory `ps`.  All timers are available
(examples/avr/at90can/vscp_user/vscp_timer.c:59 `VSCP_TIMER_NUM`), the serial driver opens its port, so that the firmware does not halt.
The LED is dark (examples/avr/at90can/driver/hw.c:169). -/
def boot (s : Surr) (past : List Out) (n : Nat) (ps : Nat → U8) : Fw :=
  ⟨past, n, (stepOpC (s.ctx n) (s.cb n) (.init fun _ => true) (powerUp ps)).2, ⟨false, 0⟩, false⟩

/-- A call of the framework; the actions it executes switch the LED. -/
def call (s : Surr) (op : Op) (f : Fw) : Fw :=
  let w := (stepOpC (s.ctx f.life) (s.cb f.life) op f.w).2
  { f with w, led := { f.led with lit := ledAfter f.led.lit (w.out.drop f.w.out.length) } }

/-- Reboot: only the persistent memory is kept. -/
def reboot (s : Surr) (f : Fw) : Fw := boot s (f.past ++ f.w.out) (f.life + 1) f.w.ps

/-- examples/avr/at90can/main.c:189-195: the button -/
def button (s : Surr) (i : In) (f : Fw) : Fw :=
  let f' := if i.pressed && !f.last then call s .startNodeSegmentInit f else f
  { f' with last := i.pressed' }

/-- examples/avr/at90can/main.c:198-208: every 250 ms -/
def periodic (s : Surr) (i : In) (f : Fw) : Fw :=
  if i.due then
    let f' := call s (.tick 250) f
    { f' with led := Driver.Lamp.process (Spec.lampAfter .off f'.w.out) f'.led }
  else f

/-- examples/avr/at90can/main.c:178-217: a pass of the main loop.  `vscp_portable_resetRequest` reboots
(examples/avr/at90can/vscp_user/vscp_portable.c:157-162) and does not return; it is the last thing a cycle does, see `reset_last`. -/
def pass (s : Surr) (i : In) (f : Fw) : Fw :=
  let f' := call s (.process i.rx) f
  if .resetRequest ∈ f'.w.out.drop f.w.out.length then reboot s f'
  else periodic s i (button s i f')

/-- The effect of a move. -/
def move (s : Surr) : Move → Fw → Fw
  | .pass i, f => pass s i f
  | .power, f => reboot s f

/-- A history of the firmware. -/
def run (s : Surr) : List Move → Fw → Fw
  | [], f => f
  | m :: l, f => run s l (move s m f)

/-- The calls made in all runs. -/
def Fw.trace (f : Fw) : List Out := f.past ++ f.w.out

end Vscp.Avr
