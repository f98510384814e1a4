/-
Property theorems: exactly which confirmations of writes are untrue with the paged feature of the decision matrix (C20).
-/
import Verif.Props.Registers
import Verif.Props.DmRegs

namespace Vscp.Registers
open M Spec

/-- The matrix is reached by the two registers of the paged feature, and a `uint16_t` can count its bytes. -/
structure PagedMatrix (c : Cfg) : Prop where
  dm : c.dm = true
  paged : c.dmPaged = true
  rows1 : 1 ≤ c.dmRows
  rows : c.dmRows ≤ 255

theorem paged_covers {c : Ctx} (h : PagedMatrix c.toCfg) {addr : U8} (ha : addr = 0x7E ∨ addr = 0x7F) :
    (¬((0 : U16) = 0 ∧ 0x80 ≤ addr.toNat)) ∧ c.dm = true ∧ Dm.isDecisionMatrix c 0 addr = true := by
  refine ⟨?_, h.dm, ?_⟩
  · rcases ha with rfl | rfl <;> exact fun e => absurd e.2 (by decide)
  · rcases ha with rfl | rfl <;> simp [Dm.isDecisionMatrix, h.paged, Dm.isDecisionMatrixPaged]

theorem paged_read {c : Ctx} (h : PagedMatrix c.toCfg) (w : W) : (Core.readRegister c 0 0x7E w).1 = w.dm.idx ∧
    (Core.readRegister c 0 0x7F w).1 = (if w.dm.idx.toNat < 8 * c.dmRows then w.ps (Ps.addrDm c + w.dm.idx.toNat) else 0) := by
  obtain ⟨hE, dE, cE⟩ := paged_covers h (.inl rfl)
  obtain ⟨hF, dF, cF⟩ := paged_covers h (.inr rfl)
  have hs : Ps.sizeDm c = c.dmRows * 8 := by unfold Ps.sizeDm; rw [if_pos h.dm]
  constructor
  · unfold Core.readRegister
    rw [if_neg (fun e => hE ⟨e.1, e.2.1⟩), if_pos ⟨dE, cE⟩]
    unfold Dm.readRegister
    rw [if_pos h.paged]
    rfl
  · unfold Core.readRegister
    rw [if_neg (fun e => hF ⟨e.1, e.2.1⟩), if_pos ⟨dF, cF⟩]
    unfold Dm.readRegister
    rw [if_pos h.paged]
    unfold Dm.readRegisterPaged
    rw [if_pos rfl, if_neg (by decide), if_pos rfl]
    simp only [bind_run, get_run]
    have hrr : c.dmRows ≤ Dm.rows c := by unfold Dm.rows; split <;> omega
    by_cases hi : Dm.rows c ≤ w.dm.idx.toNat / 8
    · rw [if_pos hi, if_neg (by omega)]; rfl
    · rw [if_neg hi]
      unfold Ps.readDm Ps.readIdx
      rw [hs, show w.dm.idx.toNat / 8 * 8 + w.dm.idx.toNat % 8 = w.dm.idx.toNat by omega]
      by_cases h2 : w.dm.idx.toNat < 8 * c.dmRows
      · rw [if_pos h2, if_pos (by omega)]; rfl
      · rw [if_neg h2, if_neg (by omega)]; rfl

/-- C20 with the paged feature, the register with the index: the confirmation of an accepted write carries the written value,
whatever it is; the register holds it afterwards exactly if it is a number of a byte of the matrix or the number it held before. -/
theorem C20_paged_index_exact (c : Ctx) (h : PagedMatrix c.toCfg) (w : W) (m : Msg) (v : U8) (hm : Request m 11 [w.v.nick, 0x7E, v])
    (he : writeEnable (w.ps (Ps.addrFlags c)) = true) :
    (∃ ok, (handle c m w).out = w.out ++ [.tx (event c w.v.nick 3 10 [0x7E, v]) ok]) ∧
    (Core.readRegister c 0 0x7E (handle c m w)).1 =
      (if v.toNat < 8 * ((if c.dmExt then 2 else 1) * c.dmRows) then v else (Core.readRegister c 0 0x7E w).1) ∧
    ((Core.readRegister c 0 0x7E (handle c m w)).1 = v ↔
      v.toNat < 8 * ((if c.dmExt then 2 else 1) * c.dmRows) ∨ v = (Core.readRegister c 0 0x7E w).1) := by
  obtain ⟨hE, dE, cE⟩ := paged_covers h (.inl rfl)
  have hrow : Dm.rows c = (if c.dmExt then 2 else 1) * c.dmRows := by unfold Dm.rows; split <;> simp
  have hb : 1 ≤ Dm.rows c ∧ Dm.rows c ≤ 510 := by have := h.rows1; have := h.rows; unfold Dm.rows; split <;> omega
  have hlast : (BitVec.ofNat 16 (Dm.rows c) * 8 - 1 : U16).toNat = Dm.rows c * 8 - 1 := by
    rw [BitVec.toNat_sub, BitVec.toNat_mul, BitVec.toNat_ofNat, show (8 : U16).toNat = 8 from rfl, show (1 : U16).toNat = 1 from rfl]; omega
  have hw : Core.writeRegister c 0 0x7E v w =
      ((v, false), if v.toNat < 8 * Dm.rows c then { w with dm := { w.dm with idx := v } } else w) := by
    rw [writeRegister_outer hE (by unfold accepted; rw [if_neg hE]; exact he)]
    simp only
    rw [if_pos ⟨dE, cE⟩]
    unfold Dm.writeRegister
    rw [if_pos h.paged]
    unfold Dm.writeRegisterPaged
    rw [if_pos rfl, if_pos rfl]
    simp only [bind_run, whenM_run, hlast]
    by_cases hv : v.toNat < 8 * Dm.rows c
    · rw [if_pos hv, if_pos (by omega)]; rfl
    · rw [if_neg hv, if_neg (by omega)]; rfl
  rw [handle_write c w m 0x7E v hm, hw, ← hrow]
  simp only [if_true]
  rw [(paged_read h _).1, (paged_read h _).1, sent_out]
  by_cases hv : v.toNat < 8 * Dm.rows c
  · simp only [if_pos hv, sent_dm]
    exact ⟨⟨_, rfl⟩, trivial, by simp [hv]⟩
  · simp only [if_neg hv, sent_dm]
    refine ⟨⟨_, rfl⟩, trivial, ?_⟩
    simp only [hv, false_or]
    exact eq_comm

/-- C20 with the paged feature, the register with the data: with the index below the number of bytes stored, the confirmation of an
accepted write carries the written value and the register holds it afterwards.  Extension rows are reached by the index as
well, but not stored: there the write is confirmed and the register holds 0. -/
theorem C20_paged_data_exact (c : Ctx) (h : PagedMatrix c.toCfg) (w : W) (m : Msg) (v : U8) (hm : Request m 11 [w.v.nick, 0x7F, v])
    (he : writeEnable (w.ps (Ps.addrFlags c)) = true) (hi : w.dm.idx.toNat < 8 * ((if c.dmExt then 2 else 1) * c.dmRows)) :
    (∃ t ok, (handle c m w).out = w.out ++ t ++ [.tx (event c w.v.nick 3 10 [0x7F, v]) ok] ∧ frames t = []) ∧
    (Core.readRegister c 0 0x7F (handle c m w)).1 = (if w.dm.idx.toNat < 8 * c.dmRows then v else 0) ∧
    ((Core.readRegister c 0 0x7F (handle c m w)).1 = v ↔ w.dm.idx.toNat < 8 * c.dmRows ∨ v = 0) := by
  obtain ⟨hF, dF, cF⟩ := paged_covers h (.inr rfl)
  have hs : Ps.sizeDm c = c.dmRows * 8 := by unfold Ps.sizeDm; rw [if_pos h.dm]
  have hrow : Dm.rows c = (if c.dmExt then 2 else 1) * c.dmRows := by unfold Dm.rows; split <;> simp
  rw [← hrow] at hi
  have hw : ∃ r, Core.writeRegister c 0 0x7F v w = ((v, false), r) ∧ r.v = w.v ∧ r.dm = w.dm ∧
      (w.dm.idx.toNat < 8 * c.dmRows → r.ps (Ps.addrDm c + w.dm.idx.toNat) = v) ∧ (∃ t, r.out = w.out ++ t ∧ frames t = []) := by
    rw [writeRegister_outer hF (by unfold accepted; rw [if_neg hF]; exact he)]
    simp only
    rw [if_pos ⟨dF, cF⟩]
    unfold Dm.writeRegister
    rw [if_pos h.paged]
    unfold Dm.writeRegisterPaged
    rw [if_pos rfl, if_neg (by decide), if_pos rfl]
    simp only [bind_run, get_run]
    rw [if_neg (by omega)]
    unfold Ps.writeDm Ps.writeIdx
    rw [hs, show w.dm.idx.toNat / 8 * 8 + w.dm.idx.toNat % 8 = w.dm.idx.toNat by omega]
    simp only [bind_run]
    by_cases h2 : w.dm.idx.toNat < 8 * c.dmRows
    · rw [if_pos (by omega)]
      refine ⟨_, rfl, rfl, rfl, fun _ => ?_, [.psW (Ps.addrDm c + w.dm.idx.toNat) v], rfl, rfl⟩
      show (if Ps.addrDm c + w.dm.idx.toNat = Ps.addrDm c + w.dm.idx.toNat then v else _) = v
      rw [if_pos rfl]
    · rw [if_neg (by omega)]
      exact ⟨_, rfl, rfl, rfl, fun e => absurd e h2, [], by simp, rfl⟩
  obtain ⟨r, hw, hv, hdm, hps, t, ho, hf⟩ := hw
  rw [handle_write c w m 0x7F v hm, hw]
  simp only [if_true]
  rw [(paged_read h _).2, sent_dm, sent_ps, sent_out, hv, hdm, ho]
  refine ⟨⟨t, _, rfl, hf⟩, ?_, ?_⟩
  · by_cases h2 : w.dm.idx.toNat < 8 * c.dmRows
    · rw [if_pos h2, if_pos h2]; exact hps h2
    · rw [if_neg h2, if_neg h2]
  · by_cases h2 : w.dm.idx.toNat < 8 * c.dmRows
    · rw [if_pos h2, hps h2]; simp [h2]
    · rw [if_neg h2]; simp only [h2, false_or]; exact eq_comm

/-- A node with the paged feature: an index which is too big is confirmed, but not taken; the byte at the index is written. -/
example : let c : Ctx := { Ex.ctx with dmPaged := true, logger := false }
    let w := runOps c [.init fun _ => true] (powerUp fun _ => 0x60)
    PagedMatrix c.toCfg ∧ Request (Ex.msg 0 11 7 [w.v.nick, 0x7E, 200]) 11 [w.v.nick, 0x7E, 200] ∧
    writeEnable (w.ps (Ps.addrFlags c)) = true ∧ ¬ (200 : U8).toNat < 8 * (1 * c.dmRows) ∧
    Request (Ex.msg 0 11 7 [w.v.nick, 0x7F, 9]) 11 [w.v.nick, 0x7F, 9] ∧ w.dm.idx.toNat < 8 * (1 * c.dmRows) := by
  refine ⟨⟨rfl, rfl, by decide, by decide⟩, ⟨rfl, rfl, rfl, ?_⟩, ?_, ?_, ⟨rfl, rfl, rfl, ?_⟩, ?_⟩ <;> decide +kernel

end Vscp.Registers
