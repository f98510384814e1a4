/-
Specification of the VSCP normalized integer format (independent of the model).
-/
import Verif.Model.Basic

namespace Vscp.Spec

/-- Unsigned big-endian value of a byte string. -/
def beNat : List U8 → Nat
  | [] => 0
  | b :: bs => b.toNat * 256 ^ bs.length + beNat bs

/-- Two's complement big-endian value of a byte string. -/
def beInt (bs : List U8) : Int :=
  if 2 * beNat bs < 256 ^ bs.length then (beNat bs : Int) else (beNat bs : Int) - 256 ^ bs.length

/-- Sign-magnitude exponent of the normalizer byte: bit 7 is the sign, bits 6-0 the magnitude. -/
def exponentOf (b : U8) : Int :=
  if b.toNat < 128 then (b.toNat : Int) else -((b.toNat : Int) - 128)

/-- The value fits (symmetrically) in `n` bytes. -/
def fitsIn (x : Int) (n : Nat) : Prop := x.natAbs < 2 ^ (8 * n - 1)

end Vscp.Spec
