/-
A configured segment of AVR examples.
-/
import Verif.Spec.AvrSegKeep
import Verif.Spec.Trace

namespace Vscp.Spec.AvrSegment
open Vscp.Avr

/-- The memories of the examples are valid and contain the nicknames `f`, which are different. -/
structure Configured {ι : Type} (p : Parts ι) (ps : ι → Nat → U8) (f : ι → U8) : Prop where
  valid : ∀ i, validStartUp (ps i (Ps.addrFlags (cfg (p.surr i).sz))) = true
  nick : ∀ i, ps i (Ps.addrNickname (cfg (p.surr i).sz)) = f i
  has : ∀ i, f i ≠ 0xFF
  diff : ∀ i j, f i = f j → i = j

end Vscp.Spec.AvrSegment
