/-
Specification of the serial port: the frame format which an USART uses, read from its registers (AT90CAN128 data sheet, chapter USART).
-/
import Verif.Model.SerialPort

namespace Vscp.Spec.SerialPort
open Vscp.Driver.Serial.Port

/-- Bit `n` of a register. -/
def isSet (r : U8) (n : Nat) : Bool := r.toNat / 2 ^ n % 2 = 1

/-- The number of data bits: UCSZn2 (bit 2 of UCSRnB), UCSZn1, UCSZn0 (bits 2 and 1 of UCSRnC); `none`: reserved. -/
def usedData (r : Regs) : Option Nat :=
  match isSet r.b 2, isSet r.c 2, isSet r.c 1 with
  | false, false, false => some 5
  | false, false, true => some 6
  | false, true, false => some 7
  | false, true, true => some 8
  | true, true, true => some 9
  | true, _, _ => none

inductive Par
  | no
  | even
  | odd
deriving DecidableEq

/-- The parity: UPMn1, UPMn0 (bits 5 and 4 of UCSRnC); `none`: reserved. -/
def usedParity (r : Regs) : Option Par :=
  match isSet r.c 5, isSet r.c 4 with
  | false, false => some .no
  | true, false => some .even
  | true, true => some .odd
  | false, true => none

/-- The number of stop bits: USBSn (bit 3 of UCSRnC). -/
def usedStop (r : Regs) : Nat := if isSet r.c 3 then 2 else 1

/-- Asynchronous operation: UMSELn (bit 6 of UCSRnC) is cleared. -/
def async (r : Regs) : Bool := !isSet r.c 6

/-- The duration of a bit in clock cycles: 16 (8 with U2Xn, bit 1 of UCSRnA) times the value of UBRRn plus 1. -/
def cyclesPerBit (r : Regs) : Nat := (if isSet r.a 1 then 8 else 16) * (r.ubrrh.toNat % 16 * 256 + r.ubrrl.toNat + 1)

/-- The baud rates by their names in the interface (examples/avr/at90can/driver/serialDrv.h:101-117 `SERIALDRV_BAUD`). -/
def named (baud : Nat) : Nat := [2400, 4800, 9600, 14400, 19200, 28800, 38400, 57600, 76800, 115200, 230400, 250000].getD baud 0

/-- The rate is off by at most `k` per mille: |16 MHz / cycles - nominal| ≤ nominal * k / 1000. -/
def rateWithin (k : Nat) (r : Regs) (nominal : Nat) : Prop :=
  1000 * 16000000 ≤ nominal * (1000 + k) * cyclesPerBit r ∧ nominal * (1000 - k) * cyclesPerBit r ≤ 1000 * 16000000

instance (k : Nat) (r : Regs) (n : Nat) : Decidable (rateWithin k r n) := inferInstanceAs (Decidable (_ ∧ _))

/-- The interrupts of the port: reception, transmission, data register empty (bits 7, 6, 5 of UCSRnB). -/
def rxInt (r : Regs) : Bool := isSet r.b 7
def txInt (r : Regs) : Bool := isSet r.b 6
def emptyInt (r : Regs) : Bool := isSet r.b 5
/-- Receiver and transmitter are on (bits 4, 3 of UCSRnB). -/
def rxOn (r : Regs) : Bool := isSet r.b 4
def txOn (r : Regs) : Bool := isSet r.b 3

/-- The arguments are values of their enumerations (without the last one, which is the number of the others). -/
def argsOk (data parity stop : Nat) : Prop := data < 5 ∧ parity < 3 ∧ stop < 2

/-- A port has its buffers. -/
def ready (s : State) (i : Fin 2) : Prop := (s.ctx i).rx.storage ≠ [] ∧ (s.ctx i).tx.storage ≠ []

/-- None of the interrupts of a port is enabled. -/
def silent (r : Regs) : Prop := rxInt r = false ∧ txInt r = false ∧ emptyInt r = false

/-- The call switches port `i` on: it is opened, or a byte is handed over. -/
def wakes (i : Fin 2) : Call → Prop
  | .openPort h .. => h = some i
  | .write j => j = i
  | _ => False

end Vscp.Spec.SerialPort
