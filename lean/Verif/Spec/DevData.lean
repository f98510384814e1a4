/-
Specification of the device data.
-/
import Verif.Model.World

namespace Vscp.Spec

/-- The number whose bytes are `b`, least significant byte first. -/
def ofBytesLe : List U8 → Nat
  | [] => 0
  | b :: bs => b.toNat + 256 * ofBytesLe bs

/-- The number whose bytes are `b`, most significant byte first. -/
def ofBytesBe (bs : List U8) : Nat := ofBytesLe bs.reverse

/-- A 32 bit number in the memory of the platform. -/
def ofMemory (littleEndian : Bool) (bs : List U8) : Nat :=
  if littleEndian then ofBytesLe bs else ofBytesBe bs

end Vscp.Spec
