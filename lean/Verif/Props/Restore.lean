/-
Property theorems: power loss during the restore of the factory settings (C46).
-/
import Verif.Lemmas.OpSteps
import Verif.Props.Safety

namespace Vscp.Restore
open M Spec Safety

/-- The calls made by `init` after power up with the given memory. -/
abbrev startTrace (c : Ctx) (ok : Tmr → Bool) (ps : Nat → U8) : List Out := (node c ok ps []).out

/-- The node control flags have been written. -/
def flagsWritten (c : Ctx) (t : List Out) : Prop := ∃ b, Out.psW (Ps.addrFlags c) b ∈ t

/-- The byte at an address which is not written. -/
theorem memAfter_same {ps : Nat → U8} {t : List Out} {a : Nat} (h : ∀ b, Out.psW a b ∉ t) : memAfter ps t a = ps a := by
  induction t generalizing ps with
  | nil => rfl
  | cons o t ih =>
    have ht : ∀ b, Out.psW a b ∉ t := fun b hb => h b (List.mem_cons_of_mem _ hb)
    cases o
    case psW a' b =>
      simp only [memAfter]
      rw [ih ht]
      have : a ≠ a' := fun e => h b (by simp [e])
      simp [this]
    all_goals exact ih ht

theorem applyWrites_of_mem {ps ps' : Nat → U8} {l : List (Nat × U8)} {a : Nat} (h : ps a = ps' a ∨ ∃ b, (a, b) ∈ l) :
    applyWrites ps l a = applyWrites ps' l a := by
  induction l generalizing ps ps' with
  | nil =>
    rcases h with h | ⟨b, h⟩
    · exact h
    · cases h
  | cons x l ih =>
    refine ih ?_
    by_cases hx : a = x.1
    · left; simp [hx]
    · rcases h with h | ⟨b, h⟩
      · left; simp [hx, h]
      · right
        refine ⟨b, (List.mem_cons.mp h).resolve_left fun e => hx ?_⟩
        rw [← e]

theorem error_part (c : Ctx) (p : Prop) [Decidable p] (w : W) : (whenM p (Core.changeToStateError c) w).2.ps = w.ps ∧
    ∃ e, (whenM p (Core.changeToStateError c) w).2.out = w.out ++ e ∧ (∀ a b, Out.psW a b ∉ e) ∧ Out.appRestore ∉ e := by
  have hs : Steps c True [.st .error, .errorEntered] w (whenM p (Core.changeToStateError c) w).2 :=
    Foot.whenM (fun _ => .changeToStateError (by simp)) w
  obtain ⟨e, he, hx⟩ := hs.outs
  refine ⟨hs.same .ps (by decide), e, he, fun a b hm => ?_, fun hm => ?_⟩ <;>
  · obtain ⟨x, hx, h⟩ := hx _ hm
    simp only [List.mem_cons, List.not_mem_nil, or_false] at hx
    rcases hx with rfl | rfl | rfl <;> simp [Act.emits] at h

/-- `init` after power up, when the stored flags are not valid. -/
theorem start_invalid {c : Ctx} {ok : Tmr → Bool} {ps : Nat → U8} (h : psValid c ps = false) :
    (node c ok ps []).ps = applyWrites ps (Restore.all c) ∧ ∃ e, startTrace c ok ps =
      .lamp .blinkSlow :: traceOf (Restore.all c) ++ ([.appRestore, .portRestore] ++ e) ∧ ∀ a b, Out.psW a b ∉ e := by
  obtain ⟨w1, hI, hr⟩ := init_run c ok (powerUp ps)
  have hps : w1.ps = ps := hI.ps
  have ho : w1.out = [.lamp .blinkSlow] := hI.out
  have hn : node c ok ps [] = (Core.init c ok (powerUp ps)).2 := rfl
  unfold startTrace
  have e1 : (whenM (psValid c w1.ps = false) (Core.restoreFactoryDefaultSettings c) w1).2 = (Core.restoreFactoryDefaultSettings c w1).2 := by
    rw [whenM_run, if_pos (by rw [hps]; exact h)]
  rw [hn, hr, e1]
  obtain ⟨h1, e, h2, h3, -⟩ := error_part c (timersGood c ok = false) (Core.restoreFactoryDefaultSettings c w1).2
  rw [h1, h2, restore_run, hps, ho]
  exact ⟨rfl, e, by simp, h3⟩

/-- `init` after power up, when the stored flags are valid. -/
theorem start_valid {c : Ctx} {ok : Tmr → Bool} {ps : Nat → U8} (h : psValid c ps = true) :
    (node c ok ps []).ps = ps ∧ (∀ a b, Out.psW a b ∉ startTrace c ok ps) ∧ Out.appRestore ∉ startTrace c ok ps := by
  obtain ⟨w1, hI, hr⟩ := init_run c ok (powerUp ps)
  have hps : w1.ps = ps := hI.ps
  have ho : w1.out = [.lamp .blinkSlow] := hI.out
  have hn : node c ok ps [] = (Core.init c ok (powerUp ps)).2 := rfl
  unfold startTrace
  have e1 : (whenM (psValid c w1.ps = false) (Core.restoreFactoryDefaultSettings c) w1).2 = w1 := by
    rw [whenM_run, if_neg (by rw [hps, h]; decide)]
  rw [hn, hr, e1]
  obtain ⟨h1, e, h2, h3, h4⟩ := error_part c (timersGood c ok = false) w1
  rw [h1, h2, hps, ho]
  exact ⟨rfl, fun a b hm => (by simp at hm; exact h3 a b hm), fun hm => (by simp at hm; exact h4 hm)⟩

/-- The writes of the first calls of the start. -/
theorem prefix_writes {c : Ctx} {ok : Tmr → Bool} {ps : Nat → U8} (h : psValid c ps = false) {k : Nat} {a : Nat} {b : U8}
    (hm : Out.psW a b ∈ (startTrace c ok ps).take k) : (a, b) ∈ Restore.all c := by
  obtain ⟨-, e, he, hn⟩ := start_invalid (ok := ok) h
  have := List.mem_of_mem_take hm
  rw [he] at this
  simp only [List.cons_append, List.mem_cons, List.mem_append, traceOf, List.mem_map] at this
  rcases this with h | ⟨x, hx, h⟩ | h | h | h | h
  · cases h
  · cases h; exact hx
  · cases h
  · cases h
  · cases h
  · exact absurd h (hn a b)

/-! ### C46 -/

/-- C46, partial: power is lost at any point of a start which restores the factory settings.  If the node control flags have not
been written yet, the next start restores the factory settings: the memory has the contents an undisturbed start leaves, and the
application is told to restore its settings.  Missing: power loss after this write, see `C46_violated`. -/
theorem C46_restored_partial (c : Ctx) (ok ok' : Tmr → Bool) (ps : Nat → U8) (h : psValid c ps = false) (k : Nat)
    (hk : ¬ flagsWritten c ((startTrace c ok ps).take k)) :
    let ps' := memAfter ps ((startTrace c ok ps).take k)
    (node c ok' ps' []).ps = (node c ok ps []).ps ∧ Out.appRestore ∈ startTrace c ok' ps' := by
  intro ps'
  have hf : ps' (Ps.addrFlags c) = ps (Ps.addrFlags c) := memAfter_same fun b hb => hk ⟨b, hb⟩
  have h' : psValid c ps' = false := by
    rw [← h]; unfold psValid; rw [hf]
  obtain ⟨h1, e, h2, -⟩ := start_invalid (ok := ok') h'
  rw [h1, h2, (start_invalid (ok := ok) h).1]
  refine ⟨?_, by simp⟩
  funext a
  refine applyWrites_of_mem ?_
  by_cases hw : ∃ b, Out.psW a b ∈ (startTrace c ok ps).take k
  · obtain ⟨b, hb⟩ := hw
    exact .inr ⟨b, prefix_writes h hb⟩
  · exact .inl (memAfter_same fun b hb => hw ⟨b, hb⟩)

/-- C46: after an undisturbed start the next start changes nothing and does not restore again. -/
theorem C46_once_partial (c : Ctx) (ok ok' : Tmr → Bool) (ps : Nat → U8) :
    (node c ok' (node c ok ps []).ps []).ps = (node c ok ps []).ps ∧ Out.appRestore ∉ startTrace c ok' (node c ok ps []).ps := by
  have hf : psValid c (node c ok ps []).ps = true := by
    cases h : psValid c ps with
    | true => rw [(start_valid h).1]; exact h
    | false =>
      rw [(start_invalid h).1]
      unfold psValid
      rw [flags_at]; decide
  exact ⟨(start_valid hf).1, (start_valid hf).2.2⟩

/-- A byte to which only one value is written. -/
theorem memAfter_written {ps : Nat → U8} {t : List Out} {a : Nat} {v : U8} (h : ∀ b, Out.psW a b ∈ t → b = v)
    (he : ps a = v ∨ ∃ b, Out.psW a b ∈ t) : memAfter ps t a = v := by
  induction t generalizing ps with
  | nil =>
    rcases he with h | ⟨b, h⟩
    · exact h
    · cases h
  | cons o t ih =>
    have ht : ∀ b, Out.psW a b ∈ t → b = v := fun b hb => h b (List.mem_cons_of_mem _ hb)
    have hc : ∀ b, Out.psW a b ∈ o :: t → o = .psW a b ∨ ∃ b, Out.psW a b ∈ t := fun b hb =>
      (List.mem_cons.mp hb).imp Eq.symm fun h => ⟨b, h⟩
    cases o
    case psW a' b' =>
      refine ih ht ?_
      by_cases hx : a = a'
      · subst hx
        left; simp [h b' (by simp)]
      · rcases he with h | ⟨b, hb⟩
        · left; simp [hx, h]
        · refine .inr ((hc b hb).resolve_left fun e => hx ?_)
          cases e; rfl
    all_goals
      refine ih ht (he.imp_right fun ⟨b, hb⟩ => (hc b hb).resolve_left fun e => ?_)
      cases e

/-- The flags are written once. -/
theorem flags_write {c : Cfg} {b : U8} (h : (Ps.addrFlags c, b) ∈ Restore.all c) : b = 0xA0 := by
  obtain ⟨h1, h2, h3, -⟩ := layout_low c
  unfold Restore.all at h
  simp only [List.mem_cons, List.mem_append, Prod.mk.injEq] at h
  rcases h with h | h | h | h
  · omega
  · split at h
    · simp only [List.mem_singleton, Prod.mk.injEq] at h; omega
    · cases h
  · exact h.2
  · have := from_t0 c _ (rest_eq c ▸ h)
    simp only at this
    omega

/-- C46 is violated: if power is lost after the node control flags have been written, the next start changes nothing, so
all that was not written yet is never restored.  Neither is the application told to restore its settings. -/
theorem C46_violated (c : Ctx) (ok ok' : Tmr → Bool) (ps : Nat → U8) (h : psValid c ps = false) (k : Nat)
    (hk : flagsWritten c ((startTrace c ok ps).take k)) :
    let ps' := memAfter ps ((startTrace c ok ps).take k)
    (node c ok' ps' []).ps = ps' ∧ Out.appRestore ∉ startTrace c ok' ps' := by
  intro ps'
  have hf : ps' (Ps.addrFlags c) = 0xA0 := memAfter_written (fun b hb => flags_write (prefix_writes h hb)) (.inr hk)
  have h' : psValid c ps' = true := by
    unfold psValid; rw [hf]; decide
  exact ⟨(start_valid h').1, (start_valid h').2.2⟩

-- An erased memory: after seven calls the nickname, the CRC, the flags and three bytes of the user id have been written.  The rest is never
-- restored.  After three calls nothing is lost.
example : let ps : Nat → U8 := fun _ => 0xFF
    let t := startTrace Ex.ctx allOk ps
    psValid Ex.ctx ps = false ∧
    flagsWritten Ex.ctx (t.take 7) ∧ Out.appRestore ∉ t.take 7 ∧
    (node Ex.ctx allOk ps []).ps (Ps.addrUserId Ex.ctx + 4) = 0 ∧
    memAfter ps (t.take 7) (Ps.addrUserId Ex.ctx + 4) = 0xFF ∧
    ¬ flagsWritten Ex.ctx (t.take 3) ∧ memAfter ps (t.take 3) (Ps.addrNickname Ex.ctx) = 0xFF := by
  refine ⟨by decide +kernel, ⟨0xA0, by decide +kernel⟩, by decide +kernel, by decide +kernel, by decide +kernel, ?_, by decide +kernel⟩
  rintro ⟨b, hb⟩
  have h : ((startTrace Ex.ctx allOk fun _ => 0xFF).take 3).all (fun o => match o with | .psW a _ => decide (a ≠ Ps.addrFlags Ex.ctx) | _ => true) = true := by
    decide +kernel
  have := List.all_eq_true.mp h _ hb
  simp at this

end Vscp.Restore
