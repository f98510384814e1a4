/-
Access to the persistent memory in the examples: internal EEPROM (AVR), EEPROM 25AA02E48 behind SPI (ARM).
-/
import Verif.Model.Driver

namespace Vscp.Driver.PsAccess

/-! ### Loops over single accesses, the same in both examples -/

/-- examples/avr/at90can/vscp_user/vscp_ps_access.c:123-140 `vscp_ps_access_readMultiple` (examples/arm/frdm-k64f/vscp_frdm_k64f/vscp_user/vscp_ps_access.c:222-239): the loop
from `index` on, `n` rounds; `addr + index` is converted to 16 bit. -/
def readLoop (rd : U16 → σ → U8 × σ) (addr : U16) : Nat → Nat → σ → List U8 × σ
  | _, 0, s => ([], s)
  | index, n + 1, s =>
    let r := rd (addr + BitVec.ofNat 16 index) s
    let q := readLoop rd addr (index + 1) n r.2
    (r.1 :: q.1, q.2)

/-- examples/avr/at90can/vscp_user/vscp_ps_access.c:123-140 `vscp_ps_access_readMultiple` (examples/arm/frdm-k64f/vscp_frdm_k64f/vscp_user/vscp_ps_access.c:222-239): `buffer` is the storage of
the caller, `none` the null pointer.  Outer `none`: access behind the end of the storage. -/
def readMultiple (rd : U16 → σ → U8 × σ) (addr : U16) (buffer : Option (List U8)) (size : U8) (s : σ) : Option (Option (List U8) × σ) :=
  match buffer with
  | none => some (none, s)
  | some b =>
    if 0 < size.toNat then
      if size.toNat ≤ b.length then
        let r := readLoop rd addr 0 size.toNat s
        some (some (r.1 ++ b.drop size.toNat), r.2)
      else none
    else some (some b, s)

/-- examples/avr/at90can/vscp_user/vscp_ps_access.c:149-166 `vscp_ps_access_writeMultiple` (examples/arm/frdm-k64f/vscp_frdm_k64f/vscp_user/vscp_ps_access.c:248-265): the loop from
`index` on. -/
def writeLoop (wr : U16 → U8 → σ → σ) (addr : U16) : Nat → List U8 → σ → σ
  | _, [], s => s
  | index, b :: bs, s => writeLoop wr addr (index + 1) bs (wr (addr + BitVec.ofNat 16 index) b s)

/-- examples/avr/at90can/vscp_user/vscp_ps_access.c:149-166 `vscp_ps_access_writeMultiple` (examples/arm/frdm-k64f/vscp_frdm_k64f/vscp_user/vscp_ps_access.c:248-265); `none`: access behind
the end of the bytes of the caller. -/
def writeMultiple (wr : U16 → U8 → σ → σ) (addr : U16) (buffer : Option (List U8)) (size : U8) (s : σ) : Option σ :=
  match buffer with
  | none => some s
  | some b =>
    if 0 < size.toNat then
      if size.toNat ≤ b.length then some (writeLoop wr addr 0 (b.take size.toNat) s) else none
    else some s

/-! ### AVR -/

/-- The EEPROM of the AT90CAN128: 4096 byte, the address register has 12 bit. -/
abbrev Avr := BitVec 12 → U8

/-- examples/avr/at90can/vscp_user/vscp_ps_access.c:98-101 `vscp_ps_access_read8`: `eeprom_read_byte` waits for the end of a running write access. -/
def Avr.read8 (addr : U16) (m : Avr) : U8 × Avr := (m (addr.setWidth 12), m)

/-- examples/avr/at90can/vscp_user/vscp_ps_access.c:109-114 `vscp_ps_access_write8`: `eeprom_write_byte` waits for the end of a running write access. -/
def Avr.write8 (addr : U16) (v : U8) (m : Avr) : Avr := fun a => if a = addr.setWidth 12 then v else m a

/-! ### ARM -/

/-- The world of the EEPROM behind SPI: `fin n` - has a running write cycle ended in front of transfer `n`, `junk n` - what is read while the EEPROM does not answer, `prot` - the
addresses which are protected against writing. -/
structure Chip where
  fin : Nat → Bool
  junk : Nat → U8
  prot : U8 → Bool

/-- The EEPROM: bytes, write enable latch, is a write cycle running; and the number of transfers so far. -/
structure Arm where
  mem : U8 → U8
  wel : Bool
  busy : Bool
  n : Nat

/-- The EEPROM at one transfer (Microchip 25AA02E48 data sheet): during a write cycle, only RDSR is answered, which the driver does not use; the end of the cycle resets the write
enable latch.  Simplification: the transfer itself always succeeds, and a byte is in the memory from the begin of its write cycle on (during the cycle it cannot be read). -/
def transfer (e : Chip) (tx : List U8) (s : Arm) : U8 × Arm :=
  let s := if s.busy ∧ e.fin s.n then { s with busy := false, wel := false } else s
  let t := { s with n := s.n + 1 }
  if s.busy then (e.junk s.n, t)
  else
    match tx with
    | [0x06] => (e.junk s.n, { t with wel := true })
    | [0x03, a, _] => (s.mem a, t)
    | [0x02, a, v] => (e.junk s.n, if s.wel ∧ ¬ e.prot a then { t with mem := fun x => if x = a then v else s.mem x, busy := true } else t)
    | _ => (e.junk s.n, t)

/-- examples/arm/frdm-k64f/vscp_frdm_k64f/vscp_user/vscp_ps_access.c:147-172 `vscp_ps_access_read8` -/
def Arm.read8 (e : Chip) (addr : U16) (s : Arm) : U8 × Arm :=
  if addr.toNat ≤ 0xFF then transfer e [0x03, addr.setWidth 8, 0x00] s else (0, s)

/-- examples/arm/frdm-k64f/vscp_frdm_k64f/vscp_user/vscp_ps_access.c:180-213 `vscp_ps_access_write8` -/
def Arm.write8 (e : Chip) (addr : U16) (v : U8) (s : Arm) : Arm :=
  if addr.toNat ≤ 0xFF then
    let s := (transfer e [0x06] s).2
    (transfer e [0x02, addr.setWidth 8, v] s).2
  else s

end Vscp.Driver.PsAccess
