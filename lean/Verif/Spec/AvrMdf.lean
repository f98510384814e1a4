/-
The module description of the AVR example (examples/avr/at90can/mdf/exp01.xml), as a configuration tool reads it.
-/
import Verif.Spec.Dm

namespace Vscp.Spec.Mdf

/-- What a register is, according to its name: the zone, the sub-zone, or byte `k` of row `r` of the decision matrix (both counted from 0). -/
inductive Meaning where
  | zone
  | subZone
  | row (r k : Nat)
deriving DecidableEq

/-- examples/avr/at90can/mdf/exp01.xml:80-272, in the order of the file: page, offset, meaning.  All of them are described as readable
and writeable. -/
def registers : List (U16 × U8 × Meaning) :=
  [(0, 0, .zone), (0, 1, .subZone),
   (1, 0, .row 0 0), (1, 1, .row 0 1), (0, 2, .row 0 2), (0, 3, .row 0 3), (0, 4, .row 0 4), (0, 5, .row 0 5), (0, 6, .row 0 6), (0, 7, .row 0 7),
   (1, 8, .row 1 0), (1, 9, .row 1 1), (0, 10, .row 1 2), (0, 11, .row 1 3), (0, 12, .row 1 4), (0, 13, .row 1 5), (0, 14, .row 1 6),
   (0, 15, .row 1 7)]

/-- examples/avr/at90can/mdf/exp01.xml:328: page and offset the decision matrix starts with -/
def matrixStart : U16 × U8 := (1, 0)
/-- examples/avr/at90can/mdf/exp01.xml:329: number of rows -/
def matrixRows : Nat := 10

/-- examples/avr/at90can/mdf/exp01.xml:41: version of the firmware: major, minor, sub-minor -/
def version : List U8 := [0, 2, 2]
/-- examples/avr/at90can/mdf/exp01.xml:47: the largest event the node can receive, in bytes -/
def bufferSize : U8 := 8
/-- examples/avr/at90can/mdf/exp01.xml:74: the boot loader algorithm (255: none) -/
def bootAlgorithm : U8 := 255

/-- An event the node sends, according to its description. -/
structure EventDesc where
  cls : U16
  typ : U8
  prio : U8

/-- examples/avr/at90can/mdf/exp01.xml:359-415: node heartbeat, on, off -/
def events : List EventDesc := [⟨20, 9, 7⟩, ⟨20, 3, 3⟩, ⟨20, 4, 3⟩]
/-- examples/avr/at90can/mdf/exp01.xml:363: the period of the heartbeat, in milliseconds -/
def heartbeatPeriod : Nat := 1000

/-- The byte a register stands for. -/
def value (x : Vscp.Spec.Dm.Matrix) : Meaning → U8
  | .zone => x.zone
  | .subZone => x.subZone
  | .row r k => x.row r k

/-- A register is what its description says: reading it returns the byte it stands for, writing it returns the value, stores it in that byte, and
changes no other one.  `read` and `write` are the registers of the node, on its memory; `mat` is what the memory means. -/
structure Described {μ : Type} (mat : μ → Vscp.Spec.Dm.Matrix) (read : U16 → U8 → μ → U8) (write : U16 → U8 → U8 → μ → U8 × μ) (ok : μ → Prop)
    (page : U16) (addr : U8) (what : Meaning) : Prop where
  read : ∀ m, read page addr m = value (mat m) what
  echo : ∀ m v, ok m → (write page addr v m).1 = v
  stored : ∀ m v, ok m → value (mat (write page addr v m).2) what = v
  other : ∀ m v, ok m → ∀ x, x ≠ what → (∀ r k, x = .row r k → k < 8) → value (mat (write page addr v m).2) x = value (mat m) x

end Vscp.Spec.Mdf
