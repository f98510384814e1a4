/-
Property theorems: exactly which rows fire (C48) and exactly which byte a register of the rule set is (C54).
-/
import Verif.Props.Dm
import Verif.Props.DmNgRegs

namespace Vscp.DmProps
open M Vscp.Spec Vscp.Spec.Dm Transport Vscp.Safety

/-- C48, exactly: for any event, a row fires as specified with the zone taken from the eight bytes of the storage of the event, no
matter how many of them are the payload; then the application is called once, otherwise nothing happens. -/
theorem C48_row_exact (c : Cfg) (m : Msg) (i : Nat) (w : W) (hdm : c.dm = true) (hi : i < c.dmRows) :
    let x := matrix c w.ps
    (Fires x.ext x.zone x.subZone (x.row i) (x.extRow i) m m.data.toList →
      (Dm.execRow c m i w).2 = { w with out := w.out ++ [call x.ext (x.row i) (x.extRow i) m] }) ∧
    (¬ Fires x.ext x.zone x.subZone (x.row i) (x.extRow i) m m.data.toList → (Dm.execRow c m i w).2 = w) := by
  intro x
  rw [execRow_run c m i w hdm hi]
  unfold rowCalls
  constructor
  · intro h
    rw [if_pos h]
    rfl
  · intro h
    rw [if_neg h]
    simp

theorem calls_payload (x : Matrix) (m : Msg) (h : ∀ i, i < x.rows → Complete (x.row i) m) :
    calls x m m.data.toList = calls x m (payload m) := by
  have hall : ∀ l : List Nat, (∀ i ∈ l, i < x.rows) → l.filterMap (rowCalls x m m.data.toList) = l.filterMap (rowCalls x m (payload m)) := by
    intro l
    induction l with
    | nil => intro _; rfl
    | cons i l ih =>
      intro hl
      have he : rowCalls x m m.data.toList i = rowCalls x m (payload m) i := by
        have := fires_payload (ext := x.ext) (z := x.zone) (s := x.subZone) (x := x.extRow i) (h i (hl i (by simp)))
        unfold rowCalls
        split
        · rename_i hf; rw [if_pos (this.mp hf)]
        · rename_i hf; rw [if_neg (fun e => hf (this.mpr e))]
      rw [List.filterMap_cons, List.filterMap_cons, he, ih fun j hj => hl j (by simp [hj])]
  exact hall _ fun i hi => List.mem_range.mp hi

/-- C48 and C49, for a whole cycle: if the received event of another class carries the bytes the rows ask for, the actions of the
cycle are exactly those of the rows which fire for its payload, in the order of the rows. -/
theorem C48_cycle_partial (c : Ctx) (rx : Option Msg) (m : Msg) (w : W) (hdm : c.dm = true) (hng : c.dmNg = false) (hn : c.dmRows ≤ 255)
    (ha : w.v.st = .active) (hr : (readMessage c rx w).1 = some m) (hm : m.size.toNat ≤ 8) (hc : m.cls ≠ 0)
    (h : ∀ i, i < (matrix c w.ps).rows → Complete ((matrix c w.ps).row i) m) :
    ∃ t, (stepOp c (.process rx) w).2.out = w.out ++ t ∧ actions t = calls (matrix c w.ps) m (payload m) := by
  obtain ⟨t0, ng, t1, h1, h2, h3, h4, h5, -⟩ := C49_cycle c rx m w hdm hn ha hr hm
  rw [h5 hng, List.append_nil, h4 hc, show memAfter w.ps [.event m] = w.ps from rfl, calls_payload _ _ h] at h1
  refine ⟨_, h1, ?_⟩
  have h6 : actions (calls (matrix c w.ps) m (payload m)) = calls (matrix c w.ps) m (payload m) :=
    actions_all fun o ho => by
      obtain ⟨a, p, e⟩ := calls_action _ _ _ o ho
      exact ⟨a, p, m, e⟩
  rw [actions_append, actions_append, h3, h6, List.append_nil]
  rfl

-- A node with rows which asks for a sub-zone, an event of three bytes.
example : ∀ i, i < (matrix Ex.ctx rowsMem).rows → Complete ((matrix Ex.ctx rowsMem).row i) (Ex.msg 20 3 9 [1, 0, 0]) :=
  fun _ _ => ⟨fun _ _ => by decide, fun _ _ => by decide, fun _ _ => by decide, fun _ _ => by decide⟩

example : let w := node Ex.ctx allOk rowsMem [.process none]
    w.v.st = .active ∧ (readMessage Ex.ctx (some (Ex.msg 20 3 9 [1, 0, 0])) w).1 = some (Ex.msg 20 3 9 [1, 0, 0]) ∧
    actions (stepOp Ex.ctx (.process (some (Ex.msg 20 3 9 [1, 0, 0]))) w).2.out =
      [.action 6 2 (Ex.msg 20 3 9 [1, 0, 0]), .action 7 3 (Ex.msg 20 3 9 [1, 0, 0])] := by
  decide +kernel

end Vscp.DmProps

namespace Vscp.NgRegs
open M Vscp.Spec Ps Vscp.Safety

/-- Which registers belong to a rule set of any size: those of all pages before the last one, and those of the last one up to the
end; if the size is a number of whole pages, the page behind it is taken for the last one. -/
theorem C54_claimed_exact (c : Cfg) (page : U16) (addr : U8) :
    DmNg.isDecisionMatrix c page addr = true ↔ 0 < c.ngSize ∧ c.ngPage ≤ page.toNat ∧
      ((page.toNat - c.ngPage) * 256 + addr.toNat < c.ngSize ∨ c.ngSize % 256 = 0 ∧ page.toNat - c.ngPage = c.ngSize / 256) := by
  have ha := addr.isLt
  unfold DmNg.isDecisionMatrix DmNg.lastPage
  by_cases h0 : 0 < c.ngSize
  · rw [if_pos h0]
    by_cases h1 : c.ngPage ≤ page.toNat ∧ page.toNat ≤ c.ngPage + c.ngSize / 256
    · rw [if_pos h1]
      by_cases h2 : page.toNat = c.ngPage + c.ngSize / 256
      · rw [if_pos h2, decide_eq_true_iff]
        unfold DmNg.lastPageOffset
        split <;> omega
      · rw [if_neg h2]; simp; omega
    · rw [if_neg h1]; simp; omega
  · rw [if_neg h0]; simp; omega

/-- C54, exactly: for a rule set of any size, a register of it is the byte with the number of the register, whatever its page is; so
every page shows the first 256 bytes again. -/
theorem C54_register_exact (c : Ctx) (hng : c.dmNg = true) (page : U16) (addr : U8) (hf : Free c page addr)
    (hc : DmNg.isDecisionMatrix c page addr = true) (w : W) :
    Core.readRegister c page addr w = (if addr.toNat < c.ngSize then w.ps (addrDmNg c + addr.toNat) else 0, w) ∧
    (writeEnable (w.ps (addrFlags c)) = true → ∀ v, (Core.writeRegister c page addr v w).2.ps = fun a =>
      if addr.toNat < c.ngSize ∧ a = addrDmNg c + addr.toNat then v else w.ps a) := by
  have hi : (DmNg.regIndex c page addr).toNat = addr.toNat := by
    unfold DmNg.regIndex
    have := addr.isLt
    rw [BitVec.toNat_ofNat]; omega
  constructor
  · rw [read_claimed hng hf hc, hi]
  · intro he v
    rw [write_claimed hng hf hc w he v, hi]

/-- A rule set of 600 bytes on the pages 1 to 3: register 7 of page 3 belongs to it, register 100 of page 3 does not. -/
example : let c : Ctx := { Ex.ctx with dm := false, dmNg := true, ngSize := 600, ngPage := 1 }
    Free c.toCfg 3 7 ∧ DmNg.isDecisionMatrix c.toCfg 3 7 = true ∧ DmNg.isDecisionMatrix c.toCfg 3 100 = false := by
  refine ⟨⟨by decide, by decide⟩, by decide, by decide⟩

end Vscp.NgRegs
