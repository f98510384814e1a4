/-
Specification of the responses to an extended page read.
-/
import Verif.Spec.Registers

namespace Vscp.Spec

/-- The extended page responses (class 0, type 39) which were transmitted successfully, in order. -/
def delivered (t : List Out) : List Msg :=
  t.filterMap fun o => match o with
    | .tx m true => if m.cls = 0 ∧ m.typ = 39 then some m else none
    | _ => none

/-- The number of the register `addr` of page `page`. -/
def regNo (page : U16) (addr : U8) : Nat := page.toNat * 256 + addr.toNat

/-- The numbers of the registers of a response: index, page (two bytes), address of the first register, values. -/
def regsOf (m : Msg) : List Nat :=
  (List.range (m.size.toNat - 4)).map fun i => (m.data[1].toNat * 256 + m.data[2].toNat) * 256 + m.data[3].toNat + i

/-- `n` registers from the given one on; the register behind the last one of the last page is the first one of page 0. -/
def requested (page : U16) (addr : U8) (n : Nat) : List Nat :=
  (List.range n).map fun i => (regNo page addr + i) % (65536 * 256)

/-- `l` is the list of the given number of consecutive response indices. -/
def numberedFrom (seq : U8) (fs : List Msg) : Prop :=
  ∀ i (h : i < fs.length), fs[i].data[0] = seq + BitVec.ofNat 8 i

end Vscp.Spec
