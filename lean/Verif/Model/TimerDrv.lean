/-
The hardware timer of the AVR example and its driver (examples/avr/at90can/driver/timerDrv.c), clock by clock.
-/
import Verif.Model.Main

namespace Vscp.Driver.TimerDrv

/-- examples/avr/at90can/driver/timerDrv.c:78 `TIMERDRV_PRELOAD_VALUE` for 16 MHz and a tick of 1 ms (examples/avr/at90can/driver/timerDrv.h:75, `F_CPU` in
examples/avr/at90can/atmel_studio7/app/app.cproj:56) -/
def PRELOAD : U8 := 56
/-- examples/avr/at90can/driver/timerDrv.c:81 `TIMERDRV_THRESHOLD_VALUE` -/
def THRESHOLD : U8 := 10
/-- examples/avr/at90can/driver/timerDrv.c:75 `TIMERDRV_PRESCALER`: CS02..CS00 as a number -/
def PRESCALER : U8 := (0 <<< 2) ||| (1 <<< 1) ||| (0 <<< 0)

/-- The data sheet of the AT90CAN: by how much the clock of the CPU is divided, if at all -/
def divider (cs : U8) : Option Nat :=
  if cs = 1 then some 1 else if cs = 2 then some 8 else if cs = 3 then some 64 else if cs = 4 then some 256
  else if cs = 5 then some 1024 else none

/-- The counter register TCNT0, the overflow flag TOV0, and the variables of the driver (examples/avr/at90can/driver/timerDrv.c:134-140); `cb`: is a callback
set? -/
structure State where
  tcnt : U8
  tov : Bool
  cb : Bool
  t : Tick.State
deriving DecidableEq

/-- examples/avr/at90can/driver/timerDrv.c:154-170 `timerDrv_init`, behind a reset (the timer stands still, its flag is cleared) -/
def init : State := ⟨PRELOAD, false, false, Tick.init⟩

/-- examples/avr/at90can/driver/timerDrv.c:178-186 `timerDrv_setCallback`; the block is atomic -/
def setCallback (on : Bool) (s : State) : State := { s with cb := on }

/-- examples/avr/at90can/driver/timerDrv.c:193-196 `timerDrv_getTickCount` -/
def getTickCount (s : State) : U8 := s.t.tick

/-- The data sheet: a clock of the timer; the overflow sets the flag. -/
def clock (s : State) : State := { s with tcnt := s.tcnt + 1, tov := s.tov || s.tcnt == 255 }

/-- examples/avr/at90can/driver/timerDrv.c:232-254 `ISR(TIMER0_OVF_vect)`: the state behind it, and whether the callback is called.  The hardware clears the
flag; the few cycles between the entry and the preload are taken as cycles before the entry. -/
def isr (s : State) : State × Bool :=
  let r := Tick.isr THRESHOLD s.t
  ({ s with tcnt := PRELOAD, tov := false, t := r.1 }, r.2 && s.cb)

/-- What can happen: a clock of the timer, the interrupt (as soon as nothing else blocks it, which may take any time), a call of
`timerDrv_setCallback`. -/
inductive Move
  | clock
  | isr
  | set (on : Bool)
deriving DecidableEq

/-- The effect of a move, and the calls of the callback.  Without the flag there is no interrupt. -/
def move (s : State) : Move → State × Nat
  | .clock => (clock s, 0)
  | .isr => if s.tov then ((isr s).1, (isr s).2.toNat) else (s, 0)
  | .set on => (setCallback on s, 0)

/-- A history: the state behind it and the number of calls of the callback. -/
def run : List Move → State → State × Nat
  | [], s => (s, 0)
  | m :: l, s => ((run l (move s m).1).1, (move s m).2 + (run l (move s m).1).2)

end Vscp.Driver.TimerDrv
