/-
Decision matrix after a factory restore: C50.
-/
import Verif.Lemmas.Dm
import Verif.Lemmas.Restore
import Verif.Props.Safety

namespace Vscp.DmProps
open M Vscp.Spec Vscp.Spec.Dm Ps Vscp.Safety

/-- All writes in front of the matrices are in front of the memory of the matrices. -/
theorem all_below (c : Cfg) : ∀ x ∈ Restore.all c, x.1 < addrDm c ∨ x ∈ Restore.mats c := by
  have hl := Restore.layout_mono c
  have hw := Restore.layout_low c
  have idx : ∀ {a s n : Nat} {σ : Nat → Nat} {f : Nat → U8} {x : Nat × U8}, a + s ≤ addrDm c →
      x ∈ (List.range n).flatMap (fun i => idxW a s (σ i) (f i)) → x.1 < addrDm c := by
    intro a s n σ f x h hx
    obtain ⟨i, -, hi⟩ := List.mem_flatMap.mp hx
    have := (mem_idxW hi).2.1
    omega
  have hg : addrGuid c + sizeGuid c = addrZone c := rfl
  have hz : addrZone c + sizeZone c = addrSubZone c := rfl
  have hs : addrSubZone c + sizeSubZone c = addrManu c := rfl
  have hm : addrManu c + sizeManu c = addrManuSub c := rfl
  have hms : addrManuSub c + sizeManuSub c = addrMdf c := rfl
  have hmd : addrMdf c + sizeMdf c = addrFam c := rfl
  have hf : addrFam c + sizeFam c = addrType c := rfl
  have ht : addrType c + sizeType c = addrLogId c := rfl
  have hu : sizeUserId c = 5 := rfl
  intro x hx
  unfold Restore.all Restore.rest Restore.devData at hx
  simp only [List.mem_cons, List.mem_append] at hx
  rcases hx with rfl | hx | rfl | hx | hx | hx
  · left; show addrNickname c < _; omega
  · split at hx
    · simp at hx; subst hx; left; show addrSegCrc c < _; omega
    · simp at hx
  · left; show addrFlags c < _; omega
  · left; exact idx (by omega) hx
  · left
    rcases hx with hx | hx | hx | hx | hx | hx | hx | hx
    · split at hx
      · exact idx (by omega) hx
      · simp at hx
    · split at hx
      · rename_i h
        have : sizeZone c = 1 := by simp [sizeZone, h]
        simp at hx; subst hx; show addrZone c < _; omega
      · simp at hx
    · split at hx
      · rename_i h
        have : sizeSubZone c = 1 := by simp [sizeSubZone, h]
        simp at hx; subst hx; show addrSubZone c < _; omega
      · simp at hx
    all_goals
      split at hx
      · exact idx (by omega) hx
      · simp at hx
  · right; exact List.mem_append.mpr hx

/-- The restore writes zeros to the first bytes of the matrix (one more than seven bytes per row), and no other value anywhere in the matrix. -/
theorem dm_writes_iff (c : Cfg) (hdm : c.dm = true) (b : Nat) (hb : b < c.dmRows * 8) (v : U8) :
    (addrDm c + b, v) ∈ Restore.all c ↔ b < c.dmRows + 7 ∧ v = 0 := by
  have hs : sizeDm c = c.dmRows * 8 := by unfold sizeDm; rw [if_pos hdm]
  have he : addrDmExt c = addrDm c + sizeDm c := rfl
  have hl := Restore.layout_mono c
  have bytes0 : ∀ (a n : Nat) (x : Nat × U8), x ∈ bytesAt a (List.replicate n 0) ↔ a ≤ x.1 ∧ x.1 < a + n ∧ x.2 = 0 := by
    intro a n x
    induction n generalizing a with
    | zero => simp [bytesAt]; omega
    | succ n ih =>
      simp only [List.replicate_succ, bytesAt, List.mem_cons, ih]
      obtain ⟨x1, x2⟩ := x
      simp only [Prod.mk.injEq]
      constructor
      · rintro (⟨rfl, rfl⟩ | ⟨h1, h2, h3⟩)
        · exact ⟨by omega, by omega, rfl⟩
        · exact ⟨by omega, by omega, h3⟩
      · rintro ⟨h1, h2, h3⟩
        by_cases e : x1 = a
        · exact .inl ⟨e, h3⟩
        · exact .inr ⟨by omega, by omega, h3⟩
  have hdmw : (addrDm c + b, v) ∈ Restore.dm c ↔ b < c.dmRows + 7 ∧ v = 0 := by
    unfold Restore.dm
    rw [List.mem_flatMap]
    constructor
    · rintro ⟨i, hi, hx⟩
      have hi := List.mem_range.mp hi
      rw [List.mem_append] at hx
      rcases hx with hx | hx
      · split at hx
        · have := (bytes0 _ _ _).mp hx
          simp only at this
          exact ⟨by omega, this.2.2⟩
        · simp at hx
      · split at hx
        · split at hx
          · have := (bytes0 _ _ _).mp hx
            simp only at this
            omega
          · simp at hx
        · simp at hx
    · rintro ⟨h, rfl⟩
      refine ⟨if b < c.dmRows then b else c.dmRows - 1, List.mem_range.mpr (by split <;> omega), List.mem_append.mpr (.inl ?_)⟩
      rw [if_pos (by split <;> omega), bytes0]
      simp only [and_true]
      split <;> omega
  constructor
  · intro h
    rcases all_below c _ h with h | h
    · simp only at h; omega
    · unfold Restore.mats at h
      rw [List.mem_append] at h
      rcases h with h | h
      · rw [if_pos hdm] at h; exact hdmw.mp h
      · split at h
        · have := Restore.from_ng c _ h
          simp only at this
          omega
        · simp at h
  · intro h
    obtain ⟨-, -, -, -, -, -, -, -, -, pm, -, -, -, -, -, -, -, -, -, hm⟩ := Restore.all_split c
    rw [hm]
    refine List.mem_append.mpr (.inr (List.mem_append.mpr (.inl ?_)))
    rw [if_pos hdm]
    exact hdmw.mpr h

theorem applyWrites_written {ps : Nat → U8} {l : List (Nat × U8)} {a : Nat} {v : U8} (h : ∀ b, (a, b) ∈ l → b = v)
    (he : ps a = v ∨ (a, v) ∈ l) : applyWrites ps l a = v := by
  induction l generalizing ps with
  | nil => exact he.resolve_right (by simp)
  | cons x l ih =>
    refine ih (fun b hb => h b (List.mem_cons_of_mem _ hb)) ?_
    obtain ⟨x1, x2⟩ := x
    by_cases hx : a = x1
    · left; subst hx; simp only [if_true]; exact h x2 (by simp)
    · rcases he with he | he
      · left; simp only [if_neg hx]; exact he
      · right; simpa [hx] using he

/-- A byte of the matrix after a factory restore. -/
theorem restored_byte (c : Ctx) (w : W) (hdm : c.dm = true) (b : Nat) (hb : b < c.dmRows * 8) :
    (stepOp c .restore w).2.ps (addrDm c + b) = if b < c.dmRows + 7 then 0 else w.ps (addrDm c + b) := by
  have : (stepOp c .restore w).2.ps = applyWrites w.ps (Restore.all c) := by
    show (Core.restoreFactoryDefaultSettings c w).2.ps = _
    rw [restore_run]
  rw [this]
  split
  · rename_i h
    exact applyWrites_written (fun v hv => ((dm_writes_iff c.toCfg hdm b hb v).mp hv).2)
      (.inr ((dm_writes_iff c.toCfg hdm b hb 0).mpr ⟨h, rfl⟩))
  · rename_i h
    refine applyWrites_other fun x hx e => ?_
    have := (dm_writes_iff c.toCfg hdm b hb x.2).mp (by rw [← e]; exact hx)
    exact h this.1

/-- C50: after a factory restore the first rows of the matrix do not fire, whatever was stored.  Missing: the other rows, see `C50_violated`. -/
theorem C50_rows_partial (c : Ctx) (w : W) (hdm : c.dm = true) (i : Nat) (hi : i < c.dmRows) (h : i * 8 < c.dmRows + 6)
    (z s : U8) (x : Nat → U8) (m : Msg) (d : List U8) :
    ¬ Fires c.dmExt z s ((matrix c (stepOp c .restore w).2.ps).row i) x m d := by
  intro hf
  have h1 : (matrix c (stepOp c .restore w).2.ps).row i 1 = 0 := by
    show (stepOp c .restore w).2.ps (addrDm c + (i * 8 + 1)) = 0
    rw [restored_byte c w hdm _ (by omega), if_pos (by omega)]
  have := hf.enabled
  rw [h1] at this
  simp at this

/-- C50: with a single row nothing is executed after a factory restore.  Missing: more rows, see `C50_violated`. -/
theorem C50_single_partial (c : Ctx) (w : W) (hdm : c.dm = true) (h : c.dmRows ≤ 1) (m : Msg) :
    (Dm.executeActions c m (stepOp c .restore w).2).2 = (stepOp c .restore w).2 := by
  rw [executeActions_run c.toCfg m _ hdm (by omega)]
  have : calls (matrix c.toCfg (stepOp c .restore w).2.ps) m m.data.toList = [] := by
    unfold calls
    rw [List.filterMap_eq_nil_iff]
    intro i hi
    have hi : i < c.dmRows := List.mem_range.mp hi
    rw [if_neg]
    exact C50_rows_partial c w hdm i hi (by omega) _ _ _ m _
  rw [this, List.append_nil]

/-- C50 is violated: a factory restore leaves the bytes of the matrix behind number of rows + 7 as they are. -/
theorem C50_violated (c : Ctx) (w : W) (hdm : c.dm = true) (i k : Nat) (hi : i < c.dmRows) (hk : k < 8) (h : c.dmRows + 7 ≤ i * 8 + k) :
    (matrix c (stepOp c .restore w).2.ps).row i k = (matrix c w.ps).row i k := by
  show (stepOp c .restore w).2.ps (addrDm c + (i * 8 + k)) = w.ps (addrDm c + (i * 8 + k))
  rw [restored_byte c w hdm _ (by omega), if_neg (by omega)]

/-- The last row (of ten) executes action 1 for every event. -/
def lastRowMem : Nat → U8 := fun a =>
  if a = addrDm Ex.ctx + 73 then 0x80 else if a = addrDm Ex.ctx + 78 then 1 else mem 0x60 a

/-- C50 is violated: after a factory restore an event still executes an action. -/
theorem C50_action_violated : ∃ ev : Msg,
    Out.action 1 0 ev ∈ (node Ex.ctx allOk lastRowMem [.process none, .restore, .process (some ev)]).out :=
  ⟨Ex.msg 10 6 9 [1, 2], by decide +kernel⟩

-- The first row of the same matrix does not execute anything any more.
example : let ps : Nat → U8 := fun a =>
      if a = addrDm Ex.ctx + 1 then 0x80 else if a = addrDm Ex.ctx + 6 then 1 else mem 0x60 a
    Out.action 1 0 (Ex.msg 10 6 9 [1, 2]) ∈ (node Ex.ctx allOk ps [.process none, .process (some (Ex.msg 10 6 9 [1, 2]))]).out ∧
    Out.action 1 0 (Ex.msg 10 6 9 [1, 2]) ∉ (node Ex.ctx allOk ps [.process none, .restore, .process (some (Ex.msg 10 6 9 [1, 2]))]).out := by
  decide +kernel

end Vscp.DmProps
