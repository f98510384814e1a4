/-
The serial driver of the AVR example (examples/avr/at90can/driver/serialDrv.c) with its interrupts, and `main_print` of
examples/avr/at90can/main.c.

The functions called by the application are cut into steps, one for each access to a variable or register which an interrupt service routine accesses too; between two
steps any number of interrupts may happen.  An interrupt service routine is not interrupted itself (AVR: interrupts are disabled while it runs).  The accesses are taken to happen in program
order; the storage of the cyclic buffers is not `volatile`, so a compiler may reorder them.  The code for USART 1 is a copy of the code for USART 0.
-/
import Verif.Model.Basic

namespace Vscp.Driver.Serial

/-- examples/avr/at90can/driver/serialDrv.c:73-80 `serialDrv_CyclicBuffer` -/
structure Ring where
  storage : List U8
  size : U8
  read : U8
  write : U8
deriving DecidableEq

/-- examples/avr/at90can/driver/serialDrv.c:560-566, 597-603: the next index -/
def next (size i : U8) : U8 := if size.toNat ≤ (i + 1).toNat then 0 else i + 1

/-- `storage[i] = b`; `none`: outside of the storage. -/
def store (r : Ring) (i b : U8) : Option Ring :=
  if i.toNat < r.storage.length then some { r with storage := r.storage.set i.toNat b } else none

/-- examples/avr/at90can/driver/serialDrv.c:546-577 `serialDrv_readCyclicBuffer`, not interrupted: the byte, if there is one.  Outer `none`: access
outside of the storage. -/
def Ring.get (r : Ring) : Option (Option U8 × Ring) :=
  if r.read ≠ r.write then
    match r.storage[r.read.toNat]? with
    | none => none
    | some b => some (some b, { r with read := next r.size r.read })
  else some (none, r)

/-- examples/avr/at90can/driver/serialDrv.c:586-617 `serialDrv_writeCyclicBuffer`, not interrupted: is the byte stored (`count` is 1)?  `none`: access outside of
the storage. -/
def Ring.put (r : Ring) (b : U8) : Option (Bool × Ring) :=
  if r.read ≠ next r.size r.write then
    match store r r.write b with
    | none => none
    | some r' => some (true, { r' with write := next r.size r.write })
  else some (false, r)

/-! ### Reception -/

namespace Rx

/-- The calls of the application. -/
inductive Call
  /-- examples/avr/at90can/driver/serialDrv.c:419-431 `serialDrv_read` -/
  | read
  /-- examples/avr/at90can/driver/serialDrv.c:491-505 `serialDrv_clearRx` -/
  | clear
  /-- examples/avr/at90can/driver/serialDrv.c:515-533 `serialDrv_isRxOverflow` -/
  | overflow
deriving DecidableEq

/-- What the application does next. -/
inductive Pc
  | idle
  /-- examples/avr/at90can/driver/serialDrv.c:557: is the buffer empty?  (One step: `read` is changed by the application only, so the order of the two read accesses does not
  matter.) -/
  | check
  /-- examples/avr/at90can/driver/serialDrv.c:560-566: calculate the next index -/
  | index
  /-- examples/avr/at90can/driver/serialDrv.c:569: get the byte -/
  | get (nextRead : U8)
  /-- examples/avr/at90can/driver/serialDrv.c:573: move the index, return 1 -/
  | move (nextRead data : U8)
  /-- examples/avr/at90can/driver/serialDrv.c:502: read access to `read` -/
  | load
  /-- examples/avr/at90can/driver/serialDrv.c:502: write access to `write` -/
  | drop (r : U8)
  /-- examples/avr/at90can/driver/serialDrv.c:527: read the flag -/
  | flag
  /-- examples/avr/at90can/driver/serialDrv.c:530: clear the flag, return the value which was read -/
  | unflag (f : Bool)
deriving DecidableEq

/-- What the outside world sees. -/
inductive Ev
  /-- A byte is received; is it stored? -/
  | received (b : U8) (stored : Bool)
  /-- `serialDrv_read` delivers a byte (returns 1) -/
  | got (b : U8)
  /-- `serialDrv_read` finds nothing (returns 0) -/
  | nothing
  /-- `serialDrv_clearRx` -/
  | cleared
  /-- `serialDrv_isRxOverflow` returns -/
  | overflow (f : Bool)
deriving DecidableEq

/-- examples/avr/at90can/driver/serialDrv.c:83-91 `serialDrv_Usart`: the part for reception (`rxStatus` is written only), and the program counter of the
application -/
structure State where
  ring : Ring
  overflow : Bool
  pc : Pc
deriving DecidableEq

/-- What can happen. -/
inductive Move
  /-- the application calls a function (only if it is not inside of one) -/
  | call (c : Call)
  /-- the application does its next step -/
  | step
  /-- a byte is received: examples/avr/at90can/driver/serialDrv.c:622-637 `ISR(USART0_RX_vect)` -/
  | isr (b : U8)
deriving DecidableEq

/-- The application enters a function. -/
def enter : Call → Pc
  | .read => .check
  | .clear => .load
  | .overflow => .flag

/-- One step of the application.  `none`: access outside of the storage. -/
def step (s : State) : Option (State × List Ev) :=
  match s.pc with
  | .idle => some (s, [])
  | .check => if s.ring.read ≠ s.ring.write then some ({ s with pc := .index }, []) else some ({ s with pc := .idle }, [.nothing])
  | .index => some ({ s with pc := .get (next s.ring.size s.ring.read) }, [])
  | .get nx =>
    match s.ring.storage[s.ring.read.toNat]? with
    | none => none
    | some b => some ({ s with pc := .move nx b }, [])
  | .move nx b => some ({ s with ring := { s.ring with read := nx }, pc := .idle }, [.got b])
  | .load => some ({ s with pc := .drop s.ring.read }, [])
  | .drop r => some ({ s with ring := { s.ring with write := r }, pc := .idle }, [.cleared])
  | .flag => some ({ s with pc := .unflag s.overflow }, [])
  | .unflag f => some ({ s with overflow := false, pc := .idle }, [.overflow f])

/-- examples/avr/at90can/driver/serialDrv.c:622-637 `ISR(USART0_RX_vect)`; examples/avr/at90can/driver/serialDrv.c:642-657 `ISR(USART1_RX_vect)` is the same for the other port. -/
def isr (s : State) (b : U8) : Option (State × List Ev) :=
  match s.ring.put b with
  | none => none
  | some (ok, r) => some ({ s with ring := r, overflow := if ok then s.overflow else true }, [.received b ok])

/-- The effect of a move. -/
def move (s : State) : Move → Option (State × List Ev)
  | .call c => some (if s.pc = .idle then { s with pc := enter c } else s, [])
  | .step => step s
  | .isr b => isr s b

/-- A history: the state after it and what was seen. -/
def run : List Move → State → Option (State × List Ev)
  | [], s => some (s, [])
  | mv :: l, s =>
    match move s mv with
    | none => none
    | some (s, e) =>
      match run l s with
      | none => none
      | some (s, es) => some (s, e ++ es)

/-- After the initialisation, see `Port.C104_start`. -/
def start (storage : List U8) (size : U8) : State := ⟨⟨storage, size, 0, 0⟩, false, .idle⟩

end Rx

/-! ### Transmission -/

namespace Tx

/-- What the application does next. -/
inductive Pc
  | idle
  /-- examples/avr/at90can/driver/serialDrv.c:454: is the transmit interrupt enabled? -/
  | check (b : U8)
  /-- examples/avr/at90can/driver/serialDrv.c:457: enable the interrupt -/
  | enable (b : U8)
  /-- examples/avr/at90can/driver/serialDrv.c:460: write the data register, return 0 -/
  | direct (b : U8)
  /-- examples/avr/at90can/driver/serialDrv.c:597-603: calculate the next index -/
  | index (b : U8)
  /-- examples/avr/at90can/driver/serialDrv.c:606: is the buffer full? -/
  | full (b nextWrite : U8)
  /-- examples/avr/at90can/driver/serialDrv.c:609: store the byte -/
  | store (b nextWrite : U8)
  /-- examples/avr/at90can/driver/serialDrv.c:613: move the index, return 1 -/
  | move (b nextWrite : U8)
deriving DecidableEq

/-- What the outside world sees. -/
inductive Ev
  /-- `serialDrv_write` returns: the byte handed over, the result, and whether the driver has taken the byte (data register or buffer) -/
  | returned (b : U8) (result : Nat) (taken : Bool)
  /-- a byte is written to the data register of the idle transmitter, i.e. it goes on the line -/
  | out (b : U8)
  /-- the data register is written while the transmitter is busy -/
  | overrun (b : U8)
deriving DecidableEq

/-- The part of `serialDrv_Usart` for transmission, the transmitter (a byte is on its way; the flag TXC), the interrupt enable bit TXCIE, and the program counter of
the application. -/
structure State where
  ring : Ring
  txcie : Bool
  busy : Bool
  txc : Bool
  pc : Pc
deriving DecidableEq

/-- What can happen. -/
inductive Move
  /-- the application calls `serialDrv_write` (only if it is not inside of it) -/
  | call (b : U8)
  /-- the application does its next step -/
  | step
  /-- the transmitter has sent its byte -/
  | sent
  /-- the transmit complete interrupt, if it is enabled and pending -/
  | isr
deriving DecidableEq

/-- A write access to the data register. -/
def udr (s : State) (b : U8) : State × List Ev := if s.busy then (s, [.overrun b]) else ({ s with busy := true }, [.out b])

/-- One step of examples/avr/at90can/driver/serialDrv.c:440-484 `serialDrv_write`.  `none`: access outside of the storage. -/
def step (s : State) : Option (State × List Ev) :=
  match s.pc with
  | .idle => some (s, [])
  | .check b => some ({ s with pc := if s.txcie then .index b else .enable b }, [])
  | .enable b => some ({ s with txcie := true, pc := .direct b }, [])
  | .direct b => let r := udr s b
    some ({ r.1 with pc := .idle }, r.2 ++ [.returned b 0 true])
  | .index b => some ({ s with pc := .full b (next s.ring.size s.ring.write) }, [])
  | .full b nx => if s.ring.read ≠ nx then some ({ s with pc := .store b nx }, []) else some ({ s with pc := .idle }, [.returned b 0 false])
  | .store b nx =>
    match Serial.store s.ring s.ring.write b with
    | none => none
    | some r => some ({ s with ring := r, pc := .move b nx }, [])
  | .move b nx => some ({ s with ring := { s.ring with write := nx }, pc := .idle }, [.returned b 1 true])

/-- examples/avr/at90can/driver/serialDrv.c:662-678 `ISR(USART0_TX_vect)` (examples/avr/at90can/driver/serialDrv.c:683-699 `ISR(USART1_TX_vect)` is the same for the other port); executing it clears the flag TXC. -/
def isr (s : State) : Option (State × List Ev) :=
  match s.ring.get with
  | none => none
  | some (none, _) => some ({ s with txc := false, txcie := false }, [])
  | some (some b, r) => some (udr { s with txc := false, ring := r } b)

/-- The effect of a move. -/
def move (s : State) : Move → Option (State × List Ev)
  | .call b => some (if s.pc = .idle then { s with pc := .check b } else s, [])
  | .step => step s
  | .sent => some (if s.busy then { s with busy := false, txc := true } else s, [])
  | .isr => if s.txcie && s.txc then isr s else some (s, [])

/-- A history: the state after it and what was seen. -/
def run : List Move → State → Option (State × List Ev)
  | [], s => some (s, [])
  | mv :: l, s =>
    match move s mv with
    | none => none
    | some (s, e) =>
      match run l s with
      | none => none
      | some (s, es) => some (s, e ++ es)

/-- After the initialisation: the port is open, the transmitter is idle (examples/avr/at90can/driver/serialDrv.c:337: the transmit interrupt is disabled). -/
def start (storage : List U8) (size : U8) : State := ⟨⟨storage, size, 0, 0⟩, false, false, false, .idle⟩

end Tx

/-! ### Printing a text -/

namespace Print

/-- examples/avr/at90can/main.c:306-323 `main_print`: the driver and the bytes of the text which are still to be handed over (without the terminating zero) -/
structure State where
  tx : Tx.State
  text : List U8
deriving DecidableEq

/-- What can happen: a step of the application (a call of `serialDrv_write`, or a step inside of it), or of the transmitter, or the interrupt. -/
inductive Move
  | main
  | sent
  | isr
deriving DecidableEq

/-- examples/avr/at90can/main.c:313-319: the byte is handed over again until the result is not 0; `++index` behind it. -/
def advance (text : List U8) (es : List Tx.Ev) : List U8 :=
  if es.any (fun e => match e with | .returned _ r _ => r != 0 | _ => false) then text.drop 1 else text

/-- The effect of a move. -/
def move (s : State) : Move → Option (State × List Tx.Ev)
  | .main =>
    if s.tx.pc = .idle then
      match s.text with
      | [] => some (s, [])
      | b :: _ => (Tx.move s.tx (.call b)).map fun r => ({ s with tx := r.1 }, r.2)
    else (Tx.move s.tx .step).map fun r => (⟨r.1, advance s.text r.2⟩, r.2)
  | .sent => (Tx.move s.tx .sent).map fun r => ({ s with tx := r.1 }, r.2)
  | .isr => (Tx.move s.tx .isr).map fun r => ({ s with tx := r.1 }, r.2)

/-- A history. -/
def run : List Move → State → Option (State × List Tx.Ev)
  | [], s => some (s, [])
  | mv :: l, s =>
    match move s mv with
    | none => none
    | some (s, e) =>
      match run l s with
      | none => none
      | some (s, es) => some (s, e ++ es)

/-- examples/avr/at90can/main.c:306-311: `main_print` is called with a text; 200 bytes of it are sent at most. -/
def start (tx : Tx.State) (text : List U8) : State := ⟨tx, (text.takeWhile (· ≠ 0)).take 200⟩

end Print

end Vscp.Driver.Serial
