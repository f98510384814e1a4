/-
The main programs of the examples (examples/avr/at90can/main.c, examples/arm/frdm-k64f/vscp_frdm_k64f/source/vscp_frdm_k64f.c) and the tick timer of
the AVR example (examples/avr/at90can/driver/timerDrv.c).
-/
import Verif.Model.Driver

namespace Vscp.Driver

/-! ### Tick timer -/

namespace Tick

/-- examples/avr/at90can/driver/timerDrv.c:134-140: `timerDrv_intrCounter` and `timerDrv_tickCounter` -/
structure State where
  intr : U8
  tick : U8
deriving DecidableEq

/-- examples/avr/at90can/driver/timerDrv.c:154-170 `timerDrv_init`; without the set-up of the hardware -/
def init : State := ⟨0, 0⟩

/-- examples/avr/at90can/driver/timerDrv.c:232-254 `ISR(TIMER0_OVF_vect)`: the state behind it and whether the callback is called.  `thr` is `TIMERDRV_THRESHOLD_VALUE`
(examples/avr/at90can/driver/timerDrv.c:81: 10).  The callback is set (examples/avr/at90can/main.c:241); the preload of the hardware counter is in Verif/Model/TimerDrv.lean. -/
def isr (thr : U8) (s : State) : State × Bool :=
  let i := s.intr + 1
  if thr ≤ i then (⟨0, s.tick + 1⟩, true) else (⟨i, s.tick⟩, false)

/-- `n` interrupts: the state behind them and the number of calls of the callback. -/
def isrs (thr : U8) : Nat → State × Nat
  | 0 => (init, 0)
  | n + 1 =>
    let r := isr thr (isrs thr n).1
    (r.1, (isrs thr n).2 + r.2.toNat)

end Tick

namespace Sleep

/-- What `timerDrv_sleep` does next; `e` is `endTime`. -/
inductive Pc
  /-- examples/avr/at90can/driver/timerDrv.c:210: is the end behind an overflow? -/
  | check (e : U8)
  /-- examples/avr/at90can/driver/timerDrv.c:213: wait for the overflow -/
  | wrap (e : U8)
  /-- examples/avr/at90can/driver/timerDrv.c:220: wait for the end -/
  | wait (e : U8)
  /-- the function has returned -/
  | done
deriving DecidableEq

/-- The tick counter and the state of the function. -/
structure State where
  tick : U8
  pc : Pc
deriving DecidableEq

/-- What can happen: a tick, or a step of the function (one read access to the tick counter). -/
inductive Move
  | tick
  | step
deriving DecidableEq

/-- One step of examples/avr/at90can/driver/timerDrv.c:204-223 `timerDrv_sleep` behind the calculation of the end. -/
def step (s : State) : State :=
  match s.pc with
  | .check e => { s with pc := if e < s.tick then .wrap e else .wait e }
  | .wrap e => { s with pc := if e < s.tick then .wrap e else .wait e }
  | .wait e => { s with pc := if s.tick < e then .wait e else .done }
  | .done => s

/-- The effect of a move. -/
def move (s : State) : Move → State
  | .tick => { s with tick := s.tick + 1 }
  | .step => step s

/-- A history. -/
def run (l : List Move) (s : State) : State := l.foldl move s

/-- examples/avr/at90can/driver/timerDrv.c:208: the function is called at tick `t` for `s` ticks -/
def start (t s : U8) : State := ⟨t, .check (t + s)⟩

end Sleep

/-! ### Button for the initialisation of the segment -/

namespace Button

/-- What the main loop does next (regarding the button). -/
inductive Pc
  /-- examples/avr/at90can/main.c:189-193: look for a rising edge -/
  | check
  /-- examples/avr/at90can/main.c:195: remember the state -/
  | remember
deriving DecidableEq

/-- `segmentInitButtonDebounceCnt`, `main_isInitButtonPressed`, `lastSegInitButtonState` and the program counter of the main loop -/
structure State where
  cnt : U8
  pressed : Bool
  last : Bool
  pc : Pc
deriving DecidableEq

/-- examples/avr/at90can/main.c:127, 144, 330: at the start -/
def init : State := ⟨0, false, false, .check⟩

/-- What can be seen from outside: a tick with the state of the button (pressed or not), and the start of the initialisation of the segment. -/
inductive Ev
  | tick (pressed : Bool)
  | segInit
deriving DecidableEq

/-- What can happen: a tick with the state of the button, or a step of the main loop. -/
inductive Move
  | tick (pressed : Bool)
  | step
deriving DecidableEq

/-- examples/avr/at90can/main.c:75 `MAIN_SEG_INIT_DEBOUNCE_TIME`, in ticks of 1 ms -/
def DEBOUNCE : U8 := 100

/-- examples/avr/at90can/main.c:328-354 `main_timerCb`, the part for the button; `b`: is the button pressed
(examples/avr/at90can/driver/hw.c:256-260 `hw_getSegInitButtonState`)? -/
def isrAvr (b : Bool) (s : State) : State :=
  if b = false then { s with cnt := 0, pressed := false }
  else if DEBOUNCE ≤ s.cnt then { s with pressed := true }
  else { s with cnt := s.cnt + 1 }

/-- examples/arm/frdm-k64f/vscp_frdm_k64f/source/vscp_frdm_k64f.c:258-288 `PIT0_IRQHandler`, the part for the button; `b`: is the button pressed
(examples/arm/frdm-k64f/vscp_frdm_k64f/source/vscp_frdm_k64f.c:390-400 `main_getInitButtonState`)? -/
def isrArm (b : Bool) (s : State) : State :=
  if b ≠ false then { s with cnt := 0, pressed := false }
  else if DEBOUNCE ≤ s.cnt then { s with pressed := true }
  else { s with cnt := s.cnt + 1 }

/-- One step of the main loop: examples/avr/at90can/main.c:189-195, examples/arm/frdm-k64f/vscp_frdm_k64f/source/vscp_frdm_k64f.c:211-219.  The interrupt may come between the
two read accesses to `main_isInitButtonPressed`. -/
def step (s : State) : State × List Ev :=
  match s.pc with
  | .check => ({ s with pc := .remember }, if s.pressed && !s.last then [.segInit] else [])
  | .remember => ({ s with last := s.pressed, pc := .check }, [])

/-- The effect of a move; `isr` is the timer interrupt of the example. -/
def move (isr : Bool → State → State) (s : State) : Move → State × List Ev
  | .tick b => (isr b s, [.tick b])
  | .step => step s

/-- A history: the state behind it and what was seen. -/
def run (isr : Bool → State → State) : List Move → State → State × List Ev
  | [], s => (s, [])
  | mv :: l, s => ((run isr l (move isr s mv).1).1, (move isr s mv).2 ++ (run isr l (move isr s mv).1).2)

end Button

/-! ### Status lamp -/

namespace Lamp

/-- The lamp and `slowCnt`. -/
structure State where
  lit : Bool
  slowCnt : U8
deriving DecidableEq

/-- examples/avr/at90can/main.c:359-400 `main_processStatusLamp` (the same in examples/arm/frdm-k64f/vscp_frdm_k64f/source/vscp_frdm_k64f.c:405-446
`main_processStatusLamp`); `l` is the lamp state of the framework -/
def process (l : Vscp.Lamp) (s : State) : State :=
  { lit := match l with
      | .off => false
      | .on => true
      | .blinkSlow => if s.slowCnt % 4 = 0 then !s.lit else s.lit
      | .blinkFast => !s.lit
    slowCnt := if l ≠ .blinkSlow then 0 else s.slowCnt + 1 }

/-- A history of calls. -/
def run (ls : List Vscp.Lamp) (s : State) : State := ls.foldl (fun s l => process l s) s

end Lamp

/-! ### Periodic part of the main loop -/

namespace MainLoop

/-- The software timers and the timers of the framework. -/
structure State (n m : Nat) where
  sw : SwTimer.State n
  tm : Timer.State m
deriving DecidableEq

/-- examples/avr/at90can/main.c:69 `MAIN_SWTIMER_250MS_ID` -/
def ID : U8 := 1
/-- examples/avr/at90can/main.c:72 `MAIN_SWTIMER_250MS_PERIOD` -/
def PERIOD : U8 := 250

/-- What can happen behind the initialisation: a tick of 1 ms, the periodic part of the main loop, a call of the timer driver by the framework. -/
inductive Move
  | tick
  | poll
  | start (id : U8) (v : U16)
  | stop (id : U8)
deriving DecidableEq

/-- examples/avr/at90can/main.c:198-208 (clock and lamp do not matter here), examples/avr/at90can/main.c:351: the effect of a move.  The interrupt may come during `swTimer_getStatus`; C59
shows that this is the same as before or behind it. -/
def move {n m : Nat} (s : State n m) : Move → State n m
  | .tick => { s with sw := SwTimer.process s.sw }
  | .poll =>
    let r := SwTimer.getStatus ID s.sw
    ⟨r.2, if r.1 then Timer.process (PERIOD.setWidth 16) s.tm else s.tm⟩
  | .start id v => { s with tm := Timer.start id v s.tm }
  | .stop id => { s with tm := Timer.stop id s.tm }

/-- A history. -/
def run {n m : Nat} (l : List Move) (s : State n m) : State n m := l.foldl move s

/-- examples/avr/at90can/main.c:278-279: behind the initialisation of the software timers -/
def initSw (n : Nat) : SwTimer.State n := SwTimer.start ID PERIOD false (SwTimer.start 0 10 false (SwTimer.init n))

end MainLoop

end Vscp.Driver
