/-
What a node has to answer to the requests of other nodes.
-/
import Verif.Spec.Registers
import Verif.Model.AvrApp
import Verif.Spec.Trace

namespace Vscp.Spec

/-- The content of the VSCP registers from register `0x80 + k` on, one after the other. -/
def contents (c : Ctx) (w : W) (k n : Nat) : List U8 := ((registerMap.drop k).take n).map fun r => r.value c w

/-- The registers a node can set without further ado: node control flags, user id, page select. -/
def settable (addr : U8) : Prop := addr.toNat ∈ [0x83, 0x84, 0x85, 0x86, 0x87, 0x88, 0x92, 0x93]

/-- The decision matrix a node tells about: rows, offset, and page. -/
def matrixInfo (c : Ctx) : List U8 :=
  if c.dm = true then
    if c.dmPaged = true then [BitVec.ofNat 8 c.dmRows, 0x7E, 0, 0]
    else [BitVec.ofNat 8 c.dmRows, c.dmOffset, BitVec.ofNat 8 (c.dmPage / 256), BitVec.ofNat 8 c.dmPage]
  else [0, 0, 0, 0]

/-- A request (type and data of an event of the protocol class) to the node in state `w`, and the answers to it (type and data of the frames of the node).  The table has the requests about the registers
of the framework; for the registers of the application see `Avr.Answers`. -/
inductive Answers (c : Ctx) (w : W) : U8 → List U8 → List (U8 × List U8) → Prop
  /-- Read a VSCP register. -/
  | read (k : Nat) (hk : k < registerMap.length) : Answers c w 9 [w.v.nick, BitVec.ofNat 8 (0x80 + k)] [(10, [BitVec.ofNat 8 (0x80 + k), registerMap[k].value c w])]
  /-- Write a register: its new content. -/
  | write (addr v : U8) (h : settable addr) : Answers c w 11 [w.v.nick, addr, v] [(10, [addr, v])]
  /-- Read registers one after the other of the selected page 0. -/
  | readPage (k : Nat) (hk : k < 128) (n : U8) (hn : k + n.toNat < 128) (hp : w.v.page = 0) :
      Answers c w 24 [w.v.nick, BitVec.ofNat 8 (0x80 + k), n] ((List.range ((n.toNat + 6) / 7)).map fun i => (26, numbered (contents c w k n.toNat) i))
  /-- Write flags and user id one after the other on the selected page 0. -/
  | writePage (addr : U8) (vs : List U8) (h1 : 0x83 ≤ addr.toNat) (h2 : addr.toNat + vs.length ≤ 0x89) (hv : vs ≠ []) (hp : w.v.page = 0) :
      Answers c w 25 ([w.v.nick, addr] ++ vs) [(26, 0 :: vs)]
  /-- Increment a register. -/
  | up (k : Nat) (hk : k < registerMap.length) (h : settable (BitVec.ofNat 8 (0x80 + k))) :
      Answers c w 29 [w.v.nick, BitVec.ofNat 8 (0x80 + k)] [(10, [BitVec.ofNat 8 (0x80 + k), registerMap[k].value c w + 1])]
  /-- Decrement a register. -/
  | down (k : Nat) (hk : k < registerMap.length) (h : settable (BitVec.ofNat 8 (0x80 + k))) :
      Answers c w 30 [w.v.nick, BitVec.ofNat 8 (0x80 + k)] [(10, [BitVec.ofNat 8 (0x80 + k), registerMap[k].value c w - 1])]
  /-- Who is there: the content of the registers 0xD0 to 0xFF (GUID and URL of the description), and one unused byte. -/
  | who (x : U8) (h : x = w.v.nick ∨ x = 0xFF) : Answers c w 31 [x] ((List.range 7).map fun i => (32, numbered (contents c w 0x50 48 ++ [0]) i))
  /-- The decision matrix. -/
  | info : Answers c w 33 [w.v.nick] [(34, matrixInfo c)]
  /-- Write flags and user id one after the other on page 0. -/
  | writeExt (addr : U8) (vs : List U8) (h1 : 0x83 ≤ addr.toNat) (h2 : addr.toNat + vs.length ≤ 0x89) (hv : vs ≠ []) (h4 : vs.length ≤ 4) :
      Answers c w 38 ([w.v.nick, 0, 0, addr] ++ vs) [(39, [0, 0, 0, addr] ++ vs)]

/-- The same for the application registers of the AVR example: 0 is the zone, 1 the sub-zone, the others do not exist; writes have to be enabled. -/
inductive Avr.Answers (sz : Nat) (w : W) : U8 → List U8 → List (U8 × List U8) → Prop
  | zone : Answers sz w 9 [w.v.nick, 0] [(10, [0, w.ps (Ps.addrZone (Avr.cfg sz))])]
  | subZone : Answers sz w 9 [w.v.nick, 1] [(10, [1, w.ps (Ps.addrSubZone (Avr.cfg sz))])]
  | none (addr : U8) (h1 : 2 ≤ addr.toNat) (h2 : addr.toNat < 0x80) : Answers sz w 9 [w.v.nick, addr] [(10, [addr, 0])]
  | setZone (addr v : U8) (h : addr = 0 ∨ addr = 1) (hw : writeEnable (w.ps (Ps.addrFlags (Avr.cfg sz))) = true) : Answers sz w 11 [w.v.nick, addr, v] [(10, [addr, v])]

end Vscp.Spec
