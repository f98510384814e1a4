/-
Model of the administration of the serial ports of the AVR example: handles, buffers, opening and closing.  The transfer of bytes is in Verif/Model/Serial.lean.
-/
import Verif.Model.Serial

namespace Vscp.Driver.Serial.Port

/-- examples/avr/at90can/driver/serialDrv.c:83-91 `serialDrv_Usart` (without `rxStatus`, which is written only).  A buffer whose `storage` is the
NULL pointer is a `Ring` with an empty list. -/
structure Usart where
  rx : Ring
  tx : Ring
  overflow : Bool
deriving DecidableEq

/-- The registers of an USART of the AT90CAN128 which the driver writes: UBRRnH, UBRRnL, UCSRnA, UCSRnB, UCSRnC -/
structure Regs where
  ubrrh : U8
  ubrrl : U8
  a : U8
  b : U8
  c : U8
deriving DecidableEq

/-- examples/avr/at90can/driver/serialDrv.c:105 `serialDrv_gUsart`, and the hardware behind it -/
structure State where
  ctx : Fin 2 → Usart
  hw : Fin 2 → Regs

/-- examples/avr/at90can/driver/serialDrv.h:161 `serialDrv_Handle`: `none` is the NULL pointer.  Pointers which do not come from `serialDrv_get` are not
modelled. -/
abbrev Handle := Option (Fin 2)

/-- examples/avr/at90can/driver/serialDrv.h:83-89 `SERIALDRV_RET` -/
inductive Ret
  | ok
  | error
  | enull
deriving DecidableEq

/-- A buffer after the `memset`. -/
def noRing : Ring := ⟨[], 0, 0, 0⟩

/-- examples/avr/at90can/driver/serialDrv.c:183-189 `serialDrv_init` -/
def init (s : State) : State := { s with ctx := fun _ => ⟨noRing, noRing, false⟩ }

/-- examples/avr/at90can/driver/serialDrv.c:197-205 `serialDrv_get` -/
def get (usart : Nat) : Handle := if h : usart < 2 then some ⟨usart, h⟩ else none

/-- One of the two contexts is changed. -/
def setCtx (s : State) (i : Fin 2) (u : Usart) : State := { s with ctx := fun j => if j = i then u else s.ctx j }

/-- The registers of one of the two USARTs are changed. -/
def setHw (s : State) (i : Fin 2) (r : Regs) : State := { s with hw := fun j => if j = i then r else s.hw j }

/-- examples/avr/at90can/driver/serialDrv.c:216-237 `serialDrv_initUsart`; an empty list stands for the NULL pointer. -/
def initUsart (h : Handle) (rxStorage : List U8) (rxSize : U8) (txStorage : List U8) (txSize : U8) (s : State) : State :=
  match h with
  | none => s
  | some i =>
    if rxStorage = [] ∨ 2 > rxSize.toNat ∨ txStorage = [] ∨ 2 > txSize.toNat then s
    else setCtx s i { s.ctx i with
      rx := { (s.ctx i).rx with storage := rxStorage, size := rxSize },
      tx := { (s.ctx i).tx with storage := txStorage, size := txSize } }

/-- examples/avr/at90can/atmel_studio7/app/app.cproj:56 `F_CPU` -/
def fCpu : Nat := 16000000

/-- The macros of avr-libc's `util/setbaud.h` (not part of this repository) for `BAUD`, with the default tolerance of 2 %: UBRRH_VALUE, UBRRL_VALUE, USE_2X -/
def setbaud (baud : Nat) : U8 × U8 × Bool :=
  let u1 := (fCpu + 8 * baud) / (16 * baud) - 1
  let bad := 100 * fCpu > 16 * (u1 + 1) * (100 * baud + baud * 2) ∨ 100 * fCpu < 16 * (u1 + 1) * (100 * baud - baud * 2)
  let u := if bad then (fCpu + 4 * baud) / (8 * baud) - 1 else u1
  (BitVec.ofNat 8 (u / 256), BitVec.ofNat 8 u, decide bad)

/-- The values of `BAUD` in examples/avr/at90can/driver/serialDrv.c:109-168 -/
def bauds : List Nat := [2400, 4800, 9600, 14400, 19200, 28800, 38400, 57600, 76800, 115200, 234000, 250000]

/-- `v << n` as `uint8_t` -/
def bit (v n : Nat) : U8 := BitVec.ofNat 8 (v * 2 ^ n)

/-- examples/avr/at90can/driver/serialDrv.c:276-300: the bits of the data format.  UCSZ2 is bit 2 (of UCSRnB), UCSZ1 is bit 2 and UCSZ0 is bit 1 (of UCSRnC). -/
def dataBits (data : Nat) : Option U8 :=
  if data = 0 then some (bit 0 2 ||| bit 0 2 ||| bit 0 1)
  else if data = 1 then some (bit 0 2 ||| bit 0 2 ||| bit 1 1)
  else if data = 2 then some (bit 0 2 ||| bit 1 2 ||| bit 0 1)
  else if data = 3 then some (bit 0 2 ||| bit 1 2 ||| bit 1 1)
  else if data = 4 then some (bit 1 2 ||| bit 1 2 ||| bit 1 1)
  else none

/-- examples/avr/at90can/driver/serialDrv.c:303-319: the bits of the parity.  UPM1 is bit 5, UPM0 is bit 4. -/
def parityBits (parity : Nat) : Option U8 :=
  if parity = 0 then some (bit 0 5 ||| bit 0 4)
  else if parity = 1 then some (bit 1 5 ||| bit 0 4)
  else if parity = 2 then some (bit 1 5 ||| bit 1 4)
  else none

/-- examples/avr/at90can/driver/serialDrv.c:322-334: the bits of the stop bits.  USBS is bit 3. -/
def stopBits (stop : Nat) : Option U8 :=
  if stop = 0 then some (bit 0 3)
  else if stop = 1 then some (bit 1 3)
  else none

/-- examples/avr/at90can/driver/serialDrv.c:339-357: the registers of the port.  U2X is bit 1 of UCSRnA; RXEN is bit 4, TXEN is bit 3 and RXCIE is bit 7 of UCSRnB. -/
def openRegs (r : Regs) (ubrr : U8 × U8 × Bool) (c : U8) : Regs :=
  { ubrrh := ubrr.1, ubrrl := ubrr.2.1, a := if ubrr.2.2 then r.a ||| 0x02 else r.a &&& ~~~0x02, b := bit 1 4 ||| bit 1 3 ||| bit 1 7, c := c }

/-- examples/avr/at90can/driver/serialDrv.c:249-381 `serialDrv_open`.  `none`: access outside of the table of baud rates. -/
def openPort (h : Handle) (baud data parity stop : Nat) (s : State) : Option (Ret × State) :=
  match h with
  | none => some (.enull, s)
  | some i =>
    if (s.ctx i).rx.storage = [] ∨ (s.ctx i).tx.storage = [] then some (.error, s)
    else
      match bauds[baud]? with
      | none => none
      | some b =>
        match dataBits data with
        | none => some (.error, s)
        | some d =>
          match parityBits parity with
          | none => some (.error, s)
          | some p =>
            match stopBits stop with
            | none => some (.error, s)
            | some t => some (.ok, setHw s i (openRegs (s.hw i) (setbaud b) (0 ||| d ||| p ||| t)))

/-- examples/avr/at90can/driver/serialDrv.c:388-410 `serialDrv_close`.  RXCIE is bit 7 and TXCIE is bit 6 of UCSRnB. -/
def close (h : Handle) (s : State) : State :=
  match h with
  | none => s
  | some i => setHw s i { s.hw i with b := (s.hw i).b &&& ~~~(bit 1 7 ||| bit 1 6) }

/-- What can happen to the state. -/
inductive Call
  | init
  | initUsart (h : Handle) (rxStorage : List U8) (rxSize : U8) (txStorage : List U8) (txSize : U8)
  | openPort (h : Handle) (baud data parity stop : Nat)
  | close (h : Handle)
  /-- examples/avr/at90can/driver/serialDrv.c:457, 472 `serialDrv_write`: TXCIE (bit 6 of UCSRnB) is set -/
  | write (i : Fin 2)
  /-- examples/avr/at90can/driver/serialDrv.c:671, 692: TXCIE is cleared by the interrupt service routine for transmission -/
  | txEnd (i : Fin 2)
  /-- reception, or a call of the application, changes the contents of the buffers -/
  | transfer (i : Fin 2) (u : Usart)

/-- The effect of a call. -/
def call (s : State) : Call → Option State
  | .init => some (init s)
  | .initUsart h r n t m => some (initUsart h r n t m s)
  | .openPort h b d p t => (openPort h b d p t s).map (·.2)
  | .close h => some (close h s)
  | .write i => some (setHw s i { s.hw i with b := (s.hw i).b ||| bit 1 6 })
  | .txEnd i => some (setHw s i { s.hw i with b := (s.hw i).b &&& ~~~bit 1 6 })
  | .transfer i u => some (setCtx s i u)

/-- A history. -/
def calls : List Call → State → Option State
  | [], s => some s
  | c :: l, s =>
    match call s c with
    | none => none
    | some s => calls l s

/-- After the reset of the microcontroller: the registers of the USARTs are in their initial state (UCSRnA: 0x20, UCSRnC: 0x06), the variables are zero. -/
def reset : State := ⟨fun _ => ⟨noRing, noRing, false⟩, fun _ => ⟨0, 0, 0x20, 0, 0x06⟩⟩

end Vscp.Driver.Serial.Port

namespace Vscp.Driver.Serial.Tx

/-- A port which is closed and opened again while it transmits: what can happen. -/
inductive PortMove
  /-- a call, a step of it, or the hardware -/
  | tx (m : Move)
  /-- examples/avr/at90can/driver/serialDrv.c:388-410 `serialDrv_close`, not called inside of another function of the driver -/
  | close
  /-- examples/avr/at90can/driver/serialDrv.c:249-381 `serialDrv_open`, likewise, with valid arguments -/
  | «open»
deriving DecidableEq

/-- The effect of a move: `serialDrv_close` and `serialDrv_open` clear TXCIE and leave the buffer. -/
def portMove (s : State) : PortMove → Option (State × List Ev)
  | .tx m => move s m
  | .close => some (if s.pc = .idle then { s with txcie := false } else s, [])
  | .open => some (if s.pc = .idle then { s with txcie := false } else s, [])

/-- A history. -/
def portRun : List PortMove → State → Option (State × List Ev)
  | [], s => some (s, [])
  | mv :: l, s =>
    match portMove s mv with
    | none => none
    | some (s, e) =>
      match portRun l s with
      | none => none
      | some (s, es) => some (s, e ++ es)

end Vscp.Driver.Serial.Tx
