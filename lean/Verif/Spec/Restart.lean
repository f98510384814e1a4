/-
Specification of what a restart keeps: the registers, except for those which are lost with the power.
-/
import Verif.Spec.Registers
import Verif.Spec.Trace

namespace Vscp.Spec

/-- Registers which are lost with the power: the alarm status, the page select, and the index and the data register of
a paged decision matrix (the data register shows the byte the index points at). -/
def Volatile (c : Cfg) (page : U16) (addr : U8) : Prop :=
  page = 0 ∧ (addr = 0x80 ∨ addr = 0x92 ∨ addr = 0x93 ∨
    c.dm = true ∧ c.dmPaged = true ∧ (addr = 0x7E ∨ addr = 0x7F))

instance (c : Cfg) (page : U16) (addr : U8) : Decidable (Volatile c page addr) := by unfold Volatile; infer_instance

/-- What the application answers for a register depends on nothing but the persistent memory. -/
def AppKeeps (e : Env) : Prop := ∀ n n' ps page addr, e.appRead n ps page addr = e.appRead n' ps page addr

/-- The last byte written to a place of the memory, or what was there at first. -/
def lastWritten (ps : Nat → U8) (a : Nat) (t : List Out) : U8 :=
  (t.filterMap fun o => match o with | .psW x b => if x = a then some b else none | _ => none).getLast?.getD (ps a)

end Vscp.Spec
