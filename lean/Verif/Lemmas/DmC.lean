/-
The decision matrix with calls in callbacks.
-/
import Verif.Lemmas.Dm
import Verif.Lemmas.Callout

namespace Vscp.DmProps
open M Vscp.Spec Vscp.Spec.Dm

/-- One row: if it fires, the application is called, and may call the framework. -/
theorem execRowC_run (c : Ctx) (cb : Callbacks) (m : Msg) (i : Nat) (w : W) (hdm : c.dm = true) (hi : i < c.dmRows) :
    Dm.execRowC c cb m i w = ((), match rowCalls (matrix c w.ps) m m.data.toList i with
      | none => w
      | some o => (callback c cb (addOut o w)).2) := by
  have hs : Ps.sizeDm c.toCfg = c.dmRows * 8 := by unfold Ps.sizeDm; rw [if_pos hdm]
  have hen : Dm.isRowEnabled c.toCfg i w = (((matrix c w.ps).row i 1).getLsbD 7, w) := by
    unfold Dm.isRowEnabled Ps.readDm Ps.readIdx
    rw [if_pos (by omega)]
    simp only [bind_run, psRead8_run, pure_run]
    have := flag_iff ((matrix c w.ps).row i 1) 7 0x80 (by decide) (by decide)
    have e : w.ps (Ps.addrDm c + (i * 8 + 1)) = (matrix c w.ps).row i 1 := rfl
    rw [e]
    generalize (matrix c w.ps).row i 1 = b at *
    congr 1
    cases h : b.getLsbD 7 <;> simp_all
  have hrow : Dm.readRow c.toCfg i w = (rowAt ((matrix c w.ps).row i), w) := by
    unfold Dm.readRow Ps.readDmMultiple
    rw [if_pos (by omega)]
    rfl
  have hext : c.dmExt = true → Dm.readExtRow c.toCfg i w = (extAt ((matrix c w.ps).extRow i), w) := by
    intro he
    have hs : Ps.sizeDmExt c = c.dmRows * 8 := by unfold Ps.sizeDmExt; rw [if_pos he]
    unfold Dm.readExtRow Ps.readDmExtMultiple
    rw [if_pos (by omega)]
    rfl
  unfold Dm.execRowC
  rw [bind_run, hen]
  simp only
  by_cases he : ((matrix c w.ps).row i 1).getLsbD 7 = true
  · rw [if_pos he, bind_run, hrow, bind_run]
    have hx : ∃ x, (if c.dmExt = true then Dm.readExtRow c.toCfg i else pure (Dm.extRowOfBytes [])) w = (extAt x, w) ∧
        (c.dmExt = true → x = (matrix c w.ps).extRow i) := by
      by_cases hc : c.dmExt = true
      · rw [if_pos hc, hext hc]; exact ⟨_, rfl, fun _ => rfl⟩
      · rw [if_neg hc]; exact ⟨fun _ => 0, rfl, fun h => absurd h hc⟩
    obtain ⟨x, hx, hxe⟩ := hx
    rw [hx]
    have hub : ∀ (r : Dm.Row) (w : W), whenM (Dm.zoneOutside r m) markUb w = ((), w) := by
      intro r w
      rw [whenM_run, if_neg]
      exact fun h => absurd (Util.zoneIndex_next _ _ h.2.1) h.2.2
    simp only [bind_run, getZone_run, getSubZone_run, hub]
    rw [rowAction_eq _ _ _ _ _ _ he]
    have hf : Fires c.dmExt (if c.zonePs then w.ps (Ps.addrZone c) else c.zone)
          (if c.subZonePs then w.ps (Ps.addrSubZone c) else c.subZone) ((matrix c w.ps).row i) x m m.data.toList ↔
        Fires (matrix c w.ps).ext (matrix c w.ps).zone (matrix c w.ps).subZone ((matrix c w.ps).row i) ((matrix c w.ps).extRow i) m m.data.toList := by
      by_cases hc : c.dmExt = true
      · rw [hxe hc]; rfl
      · have hno : ¬ extended c.dmExt ((matrix c w.ps).row i) := fun h => hc h.1
        have hno' : ¬ extended (matrix c w.ps).ext ((matrix c w.ps).row i) := fun h => hc h.1
        constructor
        · intro h
          have hz := h.zone; have hsz := h.subZone
          rw [if_neg hno] at hz hsz
          exact ⟨h.1, h.2, h.3, h.4, by rw [if_neg hno']; exact hz, by rw [if_neg hno']; exact hsz, h.7, h.8, fun h => absurd h hno',
            fun h => absurd h hno', fun h => absurd h hno', fun h => absurd h hno'⟩
        · intro h
          have hz := h.zone; have hsz := h.subZone
          rw [if_neg hno'] at hz hsz
          exact ⟨h.1, h.2, h.3, h.4, by rw [if_neg hno]; exact hz, by rw [if_neg hno]; exact hsz, h.7, h.8, fun h => absurd h hno,
            fun h => absurd h hno, fun h => absurd h hno, fun h => absurd h hno⟩
    unfold rowCalls
    by_cases h : Fires (matrix c w.ps).ext (matrix c w.ps).zone (matrix c w.ps).subZone ((matrix c w.ps).row i) ((matrix c w.ps).extRow i) m m.data.toList
    · rw [if_pos h, if_pos (hf.mpr h)]
      unfold call
      by_cases hc : extended c.dmExt ((matrix c w.ps).row i)
      · rw [if_pos hc, if_pos (show extended (matrix c w.ps).ext ((matrix c w.ps).row i) from hc), ← hxe hc.1]
        rfl
      · rw [if_neg hc, if_neg (show ¬ extended (matrix c w.ps).ext ((matrix c w.ps).row i) from hc)]
        rfl
    · rw [if_neg h, if_neg (fun hh => h (hf.mp hh))]
      simp
  · rw [if_neg he]
    unfold rowCalls
    rw [if_neg (fun h => he h.enabled)]
    simp

end Vscp.DmProps
