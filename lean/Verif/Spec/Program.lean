/-
Specification: the decision matrix of a node is changed by events.
-/
import Verif.Spec.Dm

namespace Vscp.Spec.Dm

/-- A matrix after bytes were stored one behind the other, from byte `b` on; eight bytes are a row. -/
def Matrix.store (x : Matrix) (b : Nat) (vs : List U8) : Matrix :=
  { x with row := fun i k => if b ≤ i * 8 + k ∧ i * 8 + k < b + vs.length then vs.getD (i * 8 + k - b) 0 else x.row i k }

/-- A program for a matrix: places and the bytes to be stored there, in this order. -/
def Matrix.program (x : Matrix) : List (Nat × List U8) → Matrix
  | [] => x
  | p :: l => (x.store p.1 p.2).program l

/-- The event asks the node `nick` to write the bytes `vs` to the page and from the register on. -/
structure WriteEvent (nick : U8) (page addr : Nat) (vs : List U8) (m : Msg) : Prop where
  request : Request m 38 ([nick, BitVec.ofNat 8 (page / 256), BitVec.ofNat 8 (page % 256), BitVec.ofNat 8 addr] ++ vs)
  some : 1 ≤ vs.length
  fits : vs.length ≤ 4
  pageOk : page < 65536
  addrOk : addr < 256

end Vscp.Spec.Dm
