/-
Specification of the number of pages a node reports.
-/
import Verif.Model.Core

namespace Vscp.Spec

/-- There is something on the page: a register which does not always read 0, or which can be written. -/
def Inhabited (c : Ctx) (page : U16) : Prop :=
  ∃ (addr v : U8) (w : W), (Core.readRegister c page addr w).1 ≠ 0 ∨ (Core.writeRegister c page addr v w).2.ps ≠ w.ps

/-- The number of pages the node reports in its register 0x99. -/
def pagesReported (c : Ctx) (w : W) : Nat := (Core.readRegister c 0 0x99 w).1.toNat

end Vscp.Spec
