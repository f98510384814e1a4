/-
The AVR example as a whole: main loop, timer interrupt, button, software timers, clock, framework, application, transport adapter, CAN driver and CAN controller.

The interrupt may come at any time.  It uses only the counter and the flag of the button, and the software timers.  The main loop reads the flag in two statements, and the software
timers in one more; these are steps of their own.  An interrupt in the middle of a step is the same as one before or behind it: for
`swTimer_getStatus` see C59, and everything else in a step does not use these variables.
-/
import Verif.Model.AvrApp
import Verif.Model.CanNode

namespace Vscp.Avr.Sys
open Vscp.Driver

/-- What the main loop does next. -/
inductive Pc
  /-- examples/avr/at90can/main.c:180 -/
  | process
  /-- examples/avr/at90can/main.c:189-193 -/
  | check
  /-- examples/avr/at90can/main.c:195 -/
  | remember
  /-- examples/avr/at90can/main.c:198-208 -/
  | periodic
deriving DecidableEq

/-- Framework, LED and `lastSegInitButtonState` (`Fw`), driver and controller, the events heard since the start, `segmentInitButtonDebounceCnt`, `main_isInitButtonPressed`, the software timers,
the clock, and the program counter. -/
structure State where
  fw : Fw
  x : CanNode.Drv
  heard : List Msg
  cnt : U8
  pressed : Bool
  sw : SwTimer.State 2
  clk : Clock.State
  pc : Pc

/-- What can happen: the timer driver calls its callback (every millisecond, see C106), with the button pressed or not; the main loop goes on; another node sends a frame; the
controller sends a frame; power off and on again (between two steps). -/
inductive Move
  | tick (b : Bool)
  | step
  | rx (b : CanDrv.BusFrame)
  | tx
  | power
deriving DecidableEq

/-- examples/avr/at90can/main.c:142-175, 232-282: start with the persistent memory `ps`, whatever the registers `ctl` of the CAN controller are; see `Avr.boot`, `CanNode.boot`,
`MainLoop.initSw`, and C107. -/
def boot (s : Surr) (past : List Out) (n : Nat) (ps : Nat → U8) (ctl : CanDrv.State) : State :=
  ⟨Avr.boot s past n ps, CanDrv.start ctl, [], 0, false, MainLoop.initSw 2, Clock.init, .process⟩

/-- Reboot: only the persistent memory is kept. -/
def reboot (s : Surr) (y : State) : State := boot s (y.fw.past ++ y.fw.w.out) (y.fw.life + 1) y.fw.w.ps y.x.1

/-- The framework is in state `w` behind a call; the actions switch the LED (see `Avr.call`). -/
def follow (f : Fw) (w : W) : Fw := { f with w, led := { f.led with lit := ledAfter f.led.lit (w.out.drop f.w.out.length) } }

/-- The node on the bus. -/
def node (y : State) : CanNode.Node := ⟨y.fw.w, y.x, y.heard⟩

/-- Framework, adapter, driver and controller do something. -/
def act (s : Surr) (a : Nat → CanNode.Around) (mv : CanNode.Move) (y : State) : CanNode.Res State :=
  match CanNode.move (s.ctx y.fw.life) (s.cb y.fw.life) (a y.fw.life) (node y) mv with
  | .ok n => .ok { y with fw := follow y.fw n.w, x := n.x, heard := n.heard }
  | .ub => .ub
  | .impossible => .impossible

/-- examples/avr/at90can/main.c:180: the framework; a reset request does not return (see `Avr.pass`) -/
def stepProcess (s : Surr) (a : Nat → CanNode.Around) (y : State) : CanNode.Res State :=
  match act s a .cycle y with
  | .ok y' => .ok (if .resetRequest ∈ y'.fw.w.out.drop y.fw.w.out.length then reboot s y' else { y' with pc := .check })
  | .ub => .ub
  | .impossible => .impossible

/-- examples/avr/at90can/main.c:189-193 -/
def stepCheck (s : Surr) (a : Nat → CanNode.Around) (y : State) : CanNode.Res State :=
  if y.pressed && !y.fw.last then
    match act s a (.call .startNodeSegmentInit) y with
    | .ok y' => .ok { y' with pc := .remember }
    | .ub => .ub
    | .impossible => .impossible
  else .ok { y with pc := .remember }

/-- examples/avr/at90can/main.c:195 -/
def stepRemember (y : State) : State := { y with fw := { y.fw with last := y.pressed }, pc := .periodic }

/-- examples/avr/at90can/main.c:198-208 -/
def stepPeriodic (s : Surr) (a : Nat → CanNode.Around) (y : State) : CanNode.Res State :=
  let r := SwTimer.getStatus MainLoop.ID y.sw
  if r.1 then
    match act s a (.call (.tick 250)) { y with sw := r.2 } with
    | .ok y' => .ok { y' with
        fw := { y'.fw with led := Lamp.process (Spec.lampAfter .off y'.fw.w.out) y'.fw.led }
        clk := Clock.process (MainLoop.PERIOD.setWidth 16) y'.clk
        pc := .process }
    | .ub => .ub
    | .impossible => .impossible
  else .ok { y with sw := r.2, pc := .process }

/-- examples/avr/at90can/main.c:178-217: one step of the main loop -/
def step (s : Surr) (a : Nat → CanNode.Around) (y : State) : CanNode.Res State :=
  match y.pc with
  | .process => stepProcess s a y
  | .check => stepCheck s a y
  | .remember => .ok (stepRemember y)
  | .periodic => stepPeriodic s a y

/-- examples/avr/at90can/main.c:328-354 `main_timerCb`; the part for the button as in `Button.isrAvr` -/
def timerCb (b : Bool) (y : State) : State :=
  let k := Button.isrAvr b ⟨y.cnt, y.pressed, y.fw.last, .check⟩
  { y with cnt := k.cnt, pressed := k.pressed, sw := SwTimer.process y.sw }

/-- The effect of a move. -/
def move (s : Surr) (a : Nat → CanNode.Around) (y : State) : Move → CanNode.Res State
  | .tick b => .ok (timerCb b y)
  | .step => step s a y
  | .rx b => act s a (.rx b) y
  | .tx => act s a .tx y
  | .power => .ok (reboot s y)

/-- A history. -/
def run (s : Surr) (a : Nat → CanNode.Around) : List Move → State → CanNode.Res State
  | [], y => .ok y
  | mv :: l, y =>
    match move s a y mv with
    | .ok y => run s a l y
    | .ub => .ub
    | .impossible => .impossible

end Vscp.Avr.Sys
