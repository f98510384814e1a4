/-
Property theorems: the pages which the example applications report are the pages with registers (C103).
-/
import Verif.Props.AvrApp
import Verif.Props.ArmApp
import Verif.Spec.PagesUsed

namespace Vscp.PagesUsed
open M Vscp.Spec

/-- There is nothing on a page behind the first one without a decision matrix and without a register of the application. -/
theorem beyond {c : Ctx} {page : U16} (h0 : page ≠ 0) (hdm : ∀ addr, Dm.isDecisionMatrix c page addr = false) (hng : c.dmNg = false)
    (hr : ∀ n ps addr, c.appRead n ps page addr = 0) (hz : ∀ n addr v, c.appZone n page addr v = none) (hz' : ∀ n addr v, c.appSubZone n page addr v = none) :
    ¬ Spec.Inhabited c page := by
  rintro ⟨addr, v, w, hw⟩
  rcases hw with hw | hw
  · apply hw
    have e : Core.readRegister c page addr = Core.appReadRegister c page addr := by
      unfold Core.readRegister
      rw [if_neg fun e => h0 e.1, hdm, hng, if_neg (by simp), if_neg (by simp)]
    rw [e]
    exact hr _ _ _
  · apply hw
    unfold Core.writeRegister
    rw [if_neg fun e => h0 e.1, hdm, hng, if_neg (by simp), if_neg (by simp), bind_run]
    have hp : Core.getRegAppWriteProtect c w = ((w.ps (Ps.addrFlags c) >>> 5) &&& 0x01, w) := rfl
    rw [hp]
    by_cases hwe : (w.ps (Ps.addrFlags c) >>> 5) &&& 0x01 ≠ 0
    · rw [if_pos hwe, bind_run]
      have e : Core.appStores c w.out.length page addr v = [] := by unfold Core.appStores; rw [hz, hz']; rfl
      show (Core.appWriteRegister c page addr v w).2.ps = w.ps
      have e2 : (Core.appWriteRegister c page addr v w).2 = (psWriteAll (Core.appStores c w.out.length page addr v) (emit (.appWrite page addr v (c.appWrite w.out.length w.ps page addr v)) w).2).2 := rfl
      rw [e2, e]
      rfl
    · rw [if_neg hwe]
      rfl

/-- Both examples have their decision matrix on page 1 only. -/
theorem avr_dm {sz : Nat} {page : U16} (h : 2 ≤ page.toNat) (addr : U8) : Dm.isDecisionMatrix (Avr.cfg sz) page addr = false := by
  show Dm.isDecisionMatrixStd (Avr.cfg sz) page addr = false
  have e1 : Dm.startPage (Avr.cfg sz) = 1 := rfl
  have e2 : Dm.lastPage (Avr.cfg sz) = 1 := by
    simp [Dm.lastPage, Dm.pages, Dm.rows, Dm.additionalPage, Dm.startPage, Dm.startOffset, Avr.cfg]
  unfold Dm.isDecisionMatrixStd
  rw [e1, e2, if_neg (c := page.toNat = 1) (by omega), if_neg (c := page.toNat = 1) (by omega), if_neg (c := 1 < page.toNat ∧ page.toNat < 1) (by omega), ite_self]

theorem arm_dm {sz : Nat} {page : U16} (h : 2 ≤ page.toNat) (addr : U8) : Dm.isDecisionMatrix (Arm.cfg sz) page addr = false := by
  show Dm.isDecisionMatrixStd (Arm.cfg sz) page addr = false
  have e1 : Dm.startPage (Arm.cfg sz) = 1 := rfl
  have e2 : Dm.lastPage (Arm.cfg sz) = 1 := by
    simp [Dm.lastPage, Dm.pages, Dm.rows, Dm.additionalPage, Dm.startPage, Dm.startOffset, Arm.cfg]
  unfold Dm.isDecisionMatrixStd
  rw [e1, e2, if_neg (c := page.toNat = 1) (by omega), if_neg (c := page.toNat = 1) (by omega), if_neg (c := 1 < page.toNat ∧ page.toNat < 1) (by omega), ite_self]

/-- Page 0 of every node: register 0x99. -/
theorem first {c : Ctx} (h : c.pagesUsed ≠ 0) : Spec.Inhabited c 0 :=
  ⟨0x99, 0, powerUp fun _ => 0, .inl h⟩

theorem ne0 {page : U16} (h : 2 ≤ page.toNat) : page ≠ 0 := fun e => by rw [e] at h; exact absurd h (by decide)

theorem avr_seven (sz : Nat) (e : Env) : (Core.readRegister (Avr.ctx sz e) 1 0 (powerUp fun _ => 7)).1 = 7 := by
  have h : Dm.isDecisionMatrix (Avr.cfg sz) 1 0 = true := by
    simp [Dm.isDecisionMatrix, Dm.isDecisionMatrixStd, Dm.lastOffset, Dm.lastPage, Dm.pages, Dm.rows, Dm.additionalPage, Dm.startPage, Dm.startOffset, Avr.cfg]
  have e1 : Core.readRegister (Avr.ctx sz e) 1 0 = Dm.readRegister (Avr.ctx sz e) 1 0 := by
    unfold Core.readRegister
    rw [if_neg (by decide), if_pos ⟨rfl, h⟩]
  have e2 : Dm.calculateMatrixIndex (Avr.cfg sz) 1 0 = some (0, 0) := by
    unfold Dm.calculateMatrixIndex
    rw [if_pos h]
    simp [Dm.startPage, Dm.startOffset, Avr.cfg]
  rw [e1]
  show (Dm.readRegisterStd (Avr.cfg sz) 1 0 (powerUp fun _ => 7)).1 = 7
  unfold Dm.readRegisterStd
  rw [e2]
  rfl

theorem arm_seven (sz : Nat) (tx : Nat → Bool) : (Core.readRegister (Arm.ctx sz tx) 1 0 (powerUp fun _ => 7)).1 = 7 := by
  have h : Dm.isDecisionMatrix (Arm.cfg sz) 1 0 = true := by
    simp [Dm.isDecisionMatrix, Dm.isDecisionMatrixStd, Dm.lastOffset, Dm.lastPage, Dm.pages, Dm.rows, Dm.additionalPage, Dm.startPage, Dm.startOffset, Arm.cfg]
  have e1 : Core.readRegister (Arm.ctx sz tx) 1 0 = Dm.readRegister (Arm.ctx sz tx) 1 0 := by
    unfold Core.readRegister
    rw [if_neg (by decide), if_pos ⟨rfl, h⟩]
  have e2 : Dm.calculateMatrixIndex (Arm.cfg sz) 1 0 = some (0, 0) := by
    unfold Dm.calculateMatrixIndex
    rw [if_pos h]
    simp [Dm.startPage, Dm.startOffset, Arm.cfg]
  rw [e1]
  show (Dm.readRegisterStd (Arm.cfg sz) 1 0 (powerUp fun _ => 7)).1 = 7
  unfold Dm.readRegisterStd
  rw [e2]
  rfl

/-- C103: In the AVR example, in every state of the node, the number in register 0x99 is exact: there is a register on a page if, and only if,
the page is below the number. -/
theorem C103_avr (sz : Nat) (e : Env) (w : W) (page : U16) : Spec.Inhabited (Avr.ctx sz e) page ↔ page.toNat < pagesReported (Avr.ctx sz e) w := by
  have hr : pagesReported (Avr.ctx sz e) w = 2 := rfl
  rw [hr]
  constructor
  · intro h
    apply Nat.lt_of_not_le
    intro h2
    have h0 := ne0 h2
    refine beyond h0 (avr_dm h2) rfl (fun n ps addr => ?_) (fun n addr v => ?_) (fun n addr v => ?_) h
    · show Avr.readRegister _ _ _ _ = 0
      unfold Avr.readRegister; rw [if_neg h0]
    · show Avr.writeZone _ _ _ = none
      unfold Avr.writeZone; rw [if_neg fun e => h0 e.1]
    · show Avr.writeSubZone _ _ _ = none
      unfold Avr.writeSubZone; rw [if_neg fun e => h0 e.1]
  · intro h
    by_cases h0 : page = 0
    · rw [h0]; exact first (by show (1 + 1 : U8) ≠ 0; decide)
    · have h1 : page = 1 := by
        apply BitVec.eq_of_toNat_eq
        have : page.toNat ≠ 0 := fun e => h0 (BitVec.eq_of_toNat_eq e)
        show page.toNat = 1
        omega
      rw [h1]
      exact ⟨0, 0, powerUp fun _ => 7, .inl (by rw [avr_seven]; decide)⟩

/-- C103: In the ARM example the pages which the number in register 0x99 announces do hold registers, and there is nothing from page 2 on.
Missing: page 1, see `C103_arm_violated`. -/
theorem C103_arm_partial (sz : Nat) (tx : Nat → Bool) (w : W) (page : U16) :
    (page.toNat < pagesReported (Arm.ctx sz tx) w → Spec.Inhabited (Arm.ctx sz tx) page) ∧ (Spec.Inhabited (Arm.ctx sz tx) page → page.toNat < 2) := by
  have hr : pagesReported (Arm.ctx sz tx) w = 1 := rfl
  rw [hr]
  constructor
  · intro h
    have h0 : page = 0 := BitVec.eq_of_toNat_eq (by show page.toNat = 0; omega)
    rw [h0]; exact first (by show (1 : U8) ≠ 0; decide)
  · intro h
    apply Nat.lt_of_not_le
    intro h2
    exact beyond (ne0 h2) (arm_dm h2) rfl (fun _ _ _ => rfl) (fun _ _ _ => rfl) (fun _ _ _ => rfl) h

/-- C103: In the ARM example, in every state, page 1 is not announced although the decision matrix is there. -/
theorem C103_arm_violated (sz : Nat) (tx : Nat → Bool) (w : W) :
    Spec.Inhabited (Arm.ctx sz tx) 1 ∧ ¬ (1 : U16).toNat < pagesReported (Arm.ctx sz tx) w :=
  ⟨⟨0, 0, powerUp fun _ => 7, .inl (by rw [arm_seven]; decide)⟩, by show ¬ 1 < 1; decide⟩

/-- The theorem applies: pages on both sides. -/
example (sz : Nat) (e : Env) : Spec.Inhabited (Avr.ctx sz e) 1 ∧ ¬ Spec.Inhabited (Avr.ctx sz e) 2 :=
  ⟨(C103_avr sz e (powerUp fun _ => 0) 1).2 (by show 1 < 2; decide), fun h => absurd ((C103_avr sz e (powerUp fun _ => 0) 2).1 h) (by show ¬ 2 < 2; decide)⟩

end Vscp.PagesUsed
