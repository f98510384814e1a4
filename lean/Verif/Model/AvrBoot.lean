/-
Start-up of the AVR example, from the reset to the main loop: watchdog, hardware timer, serial port, framework with its timer driver, software timers, clock.
-/
import Verif.Model.AvrApp
import Verif.Model.SerialPort
import Verif.Model.TimerDrv

namespace Vscp.Avr.Boot
open Vscp.Driver

/-- The watchdog of the AT90CAN (data sheet): the flag WDRF (a watchdog reset has happened; as long as it is set, the watchdog cannot be switched
off) and the enable bit WDE. -/
structure Wd where
  wdrf : Bool
  wde : Bool
deriving DecidableEq

/-- avr-libc's `wdt_enable` (not part of this repository) -/
def wdtEnable (d : Wd) : Wd := { d with wde := true }
/-- avr-libc's `wdt_disable`, with the timed sequence -/
def wdtDisable (d : Wd) : Wd := { d with wde := d.wdrf }
/-- A write access to WDE without the timed sequence: it can switch the watchdog on only. -/
def writeWde (b : Bool) (d : Wd) : Wd := { d with wde := d.wde || b }
/-- The watchdog bites (only if it is enabled): the controller is reset. -/
def bite (d : Wd) : Option Wd := if d.wde then some ⟨true, true⟩ else none

/-- examples/avr/at90can/driver/hw.c:288-296 `hw_disableWatchdog`, executed before `main`; the copy of MCUSR in GPIOR0 is not used. -/
def disableWatchdog (d : Wd) : Wd := wdtDisable { d with wdrf := false }

/-- examples/avr/at90can/driver/hw.c:101-246 `hw_init`, the part for the watchdog (lines 242-243).  The pins: see `Avr.boot`. -/
def hwInit (d : Wd) : Wd := writeWde false { d with wdrf := false }

/-- The modules with their variables and registers, the framework, and the clock. -/
structure Machine where
  wd : Wd
  tmr : TimerDrv.State
  serial : Serial.Port.State
  rxBuf : Vector U8 10
  txBuf : Vector U8 10
  vt : Timer.State 5
  w : W
  sw : SwTimer.State 2
  clk : Clock.State

/-- src/vscp_core.c:323-368: a timer could be created. -/
def given (r : U8 × Timer.State 5) : Bool := decide (r.1 ≠ Timer.INVALID)

/-- src/vscp_core.c:254-388 `vscp_core_init` with the timer driver of the example: the calls of the timer driver in their order.  `Core.init` (in `stepOpC`) does
the rest, see `C58_refines_init`. -/
def coreInit (c : Ctx) (cb : Callbacks) (m : Machine) : Bool × Machine :=
  let t0 := Timer.init m.vt
  let r1 := Timer.create t0
  let r2 := Timer.create r1.2
  let r3 := Timer.create r2.2
  let r4 := Timer.create r3.2
  let t4 := if given r4 then Timer.start r4.1 1000 r4.2 else r4.2
  let r5 := Timer.create t4
  let ok : Tmr → Bool := fun
    | .main => given r1
    | .guidDrop => given r2
    | .reg162 => given r3
    | .epoch => given r4
    | .heartbeat => given r5
  ((Core.init c ok m.w).1, { m with vt := r5.2, w := (stepOpC c cb (.init ok) m.w).2 })

/-- examples/avr/at90can/main.c:232-282 `main_initRunLevel1`: `none` for an access out of bounds, otherwise whether it returns `MAIN_RET_OK`.  The order of
the calls does not matter, as interrupts are disabled. -/
def initRunLevel1 (c : Ctx) (cb : Callbacks) (m : Machine) : Option (Bool × Machine) :=
  let m := { m with wd := hwInit m.wd, tmr := TimerDrv.setCallback true TimerDrv.init }
  let h := Serial.Port.get 0
  let s := Serial.Port.initUsart h m.rxBuf.toList 10 m.txBuf.toList 10 (Serial.Port.init m.serial)
  match Serial.Port.openPort h 6 3 0 0 s with
  | none => none
  | some (ret, s) =>
    let r := coreInit c cb { m with serial := s }
    some (decide (ret = .ok) && r.1, { r.2 with
      sw := SwTimer.start 1 250 false (SwTimer.start 0 10 false (SwTimer.init 2))
      clk := Clock.init })

/-- examples/avr/at90can/main.c:290-297 `main_initRunLevel2` -/
def initRunLevel2 (m : Machine) : Bool × Machine := (true, m)

/-- What becomes of the start. -/
inductive Outcome
  | undefined
  /-- examples/avr/at90can/common/system.h:103 `HALT` -/
  | halted (m : Machine)
  | running (m : Machine)

/-- examples/avr/at90can/main.c:142-166: from the reset to the main loop.  The texts which are printed then are in `Serial.Print`. -/
def start (c : Ctx) (cb : Callbacks) (m : Machine) : Outcome :=
  match initRunLevel1 c cb { m with wd := disableWatchdog m.wd } with
  | none => .undefined
  | some (false, m) => .halted m
  | some (true, m) =>
    if (initRunLevel2 m).1 then .running (initRunLevel2 m).2 else .halted (initRunLevel2 m).2

end Vscp.Avr.Boot
