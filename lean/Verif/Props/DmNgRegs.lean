/-
Registers of the decision matrix next generation: C54.
-/
import Verif.Lemmas.RegWrite
import Verif.Props.Safety

namespace Vscp.NgRegs
open M Vscp.Spec Ps Vscp.Safety

/-- A rule set of less than a page. -/
structure Small (c : Cfg) : Prop where
  ng : c.dmNg = true
  size : c.ngSize < 256

/-- A register which neither belongs to the VSCP registers nor to the decision matrix. -/
structure Free (c : Cfg) (page : U16) (addr : U8) : Prop where
  vscp : ¬(page = 0 ∧ 0x80 ≤ addr.toNat)
  dm : ¬(c.dm = true ∧ Dm.isDecisionMatrix c page addr = true)

theorem claimed_iff {c : Cfg} (h : Small c) (page : U16) (addr : U8) :
    DmNg.isDecisionMatrix c page addr = true ↔ page.toNat = c.ngPage ∧ addr.toNat < c.ngSize := by
  have h1 := h.size
  have hl : DmNg.lastPage c = c.ngPage := by unfold DmNg.lastPage; omega
  unfold DmNg.isDecisionMatrix
  by_cases h0 : 0 < c.ngSize
  · have ho : DmNg.lastPageOffset c = c.ngSize - 1 := by
      unfold DmNg.lastPageOffset; rw [if_pos (by omega)]; omega
    rw [if_pos h0, hl, ho]
    by_cases hp : page.toNat = c.ngPage
    · rw [if_pos (by omega), if_pos hp, decide_eq_true_iff]; omega
    · rw [if_neg (by omega)]; simp [hp]
  · rw [if_neg h0]; simp; omega

theorem index_eq {c : Cfg} {page : U16} (addr : U8) (hp : page.toNat = c.ngPage) : (DmNg.regIndex c page addr).toNat = addr.toNat := by
  unfold DmNg.regIndex
  have := addr.isLt
  rw [BitVec.toNat_ofNat, hp]; omega

theorem read_claimed {c : Ctx} (hng : c.dmNg = true) {page : U16} {addr : U8} (hf : Free c page addr)
    (hc : DmNg.isDecisionMatrix c page addr = true) (w : W) :
    Core.readRegister c page addr w =
      (if (DmNg.regIndex c page addr).toNat < c.ngSize then w.ps (addrDmNg c + (DmNg.regIndex c page addr).toNat) else 0, w) := by
  have hs : sizeDmNg c = c.ngSize := by unfold sizeDmNg; rw [if_pos hng]
  have hp : c.ngPage ≤ page.toNat := by
    unfold DmNg.isDecisionMatrix at hc
    split at hc
    · split at hc
      · omega
      · cases hc
    · cases hc
  unfold Core.readRegister
  rw [if_neg (fun e => hf.vscp ⟨e.1, e.2.1⟩), if_neg hf.dm, if_pos ⟨hng, hc⟩]
  unfold DmNg.readRegister
  rw [if_pos hp]
  unfold readDmNg readIdx
  rw [hs]
  by_cases hb : (DmNg.regIndex c page addr).toNat < c.ngSize
  · rw [if_pos (by omega), if_pos hb]; rfl
  · rw [if_neg (by omega), if_neg hb]; rfl

theorem write_claimed {c : Ctx} (hng : c.dmNg = true) {page : U16} {addr : U8} (hf : Free c page addr)
    (hc : DmNg.isDecisionMatrix c page addr = true) (w : W) (he : writeEnable (w.ps (addrFlags c)) = true) (v : U8) :
    (Core.writeRegister c page addr v w).2.ps = fun a =>
      if (DmNg.regIndex c page addr).toNat < c.ngSize ∧ a = addrDmNg c + (DmNg.regIndex c page addr).toNat then v else w.ps a := by
  have hs : sizeDmNg c = c.ngSize := by unfold sizeDmNg; rw [if_pos hng]
  have hp : c.ngPage ≤ page.toNat := by
    unfold DmNg.isDecisionMatrix at hc
    split at hc
    · split at hc
      · omega
      · cases hc
    · cases hc
  rw [writeRegister_outer hf.vscp (by unfold accepted; rw [if_neg hf.vscp]; exact he)]
  simp only
  rw [if_neg hf.dm, if_pos ⟨hng, hc⟩]
  unfold DmNg.writeRegister
  rw [if_pos hp]
  simp only [bind_run]
  unfold readDmNg
  rw [readIdx_snd]
  unfold writeDmNg writeIdx
  rw [hs]
  by_cases hb : (DmNg.regIndex c page addr).toNat < c.ngSize
  · rw [if_pos (by omega)]
    funext a
    simp only [hb, true_and]
    rfl
  · rw [if_neg (by omega)]
    funext a
    simp only [hb, false_and, if_false]
    rfl

/-- C54, for a rule set of less than 256 bytes: register `addr` of the page of the rule set is byte `addr` of it (reading does not change anything). -/
theorem C54_read_partial (c : Ctx) (h : Small c) (page : U16) (addr : U8) (hf : Free c page addr) (hp : page.toNat = c.ngPage)
    (ha : addr.toNat < c.ngSize) (w : W) : Core.readRegister c page addr w = (w.ps (addrDmNg c + addr.toNat), w) := by
  rw [read_claimed h.ng hf ((claimed_iff h page addr).mpr ⟨hp, ha⟩), index_eq addr hp, if_pos ha]

/-- C54, for a rule set of less than 256 bytes: writing register `addr` of the page of the rule set changes byte `addr` of it and nothing else of the
memory; the value is read back, and every other register of the rule set is read as before. -/
theorem C54_write_partial (c : Ctx) (h : Small c) (page : U16) (addr : U8) (hf : Free c page addr) (hp : page.toNat = c.ngPage)
    (ha : addr.toNat < c.ngSize) (w : W) (he : writeEnable (w.ps (addrFlags c)) = true) (v : U8) :
    (Core.writeRegister c page addr v w).2.ps = (fun a => if a = addrDmNg c + addr.toNat then v else w.ps a) ∧
    (Core.readRegister c page addr (Core.writeRegister c page addr v w).2).1 = v ∧
    ∀ addr' : U8, addr' ≠ addr → addr'.toNat < c.ngSize → Free c page addr' →
      (Core.readRegister c page addr' (Core.writeRegister c page addr v w).2).1 = (Core.readRegister c page addr' w).1 := by
  have hps : (Core.writeRegister c page addr v w).2.ps = (fun a => if a = addrDmNg c + addr.toNat then v else w.ps a) := by
    rw [write_claimed h.ng hf ((claimed_iff h page addr).mpr ⟨hp, ha⟩) w he, index_eq addr hp]
    funext a
    simp only [ha, true_and]
  refine ⟨hps, ?_, fun addr' hne ha' hf' => ?_⟩
  · rw [C54_read_partial c h page addr hf hp ha, hps]
    simp only [if_true]
  · rw [C54_read_partial c h page addr' hf' hp ha', C54_read_partial c h page addr' hf' hp ha', hps]
    simp only
    rw [if_neg]
    intro e
    exact hne (BitVec.eq_of_toNat_eq (by omega))

/-- C54, for a rule set of less than 256 bytes: every other register is served by the application, for reading and for writing. -/
theorem C54_other_partial (c : Ctx) (h : Small c) (page : U16) (addr : U8) (hf : Free c page addr)
    (hn : ¬(page.toNat = c.ngPage ∧ addr.toNat < c.ngSize)) (w : W) (he : writeEnable (w.ps (addrFlags c)) = true) (v : U8) :
    Core.readRegister c page addr w = Core.appReadRegister c page addr w ∧
    (∀ i, i < c.ngSize → (Core.writeRegister c page addr v w).2.ps (addrDmNg c + i) = w.ps (addrDmNg c + i)) ∧
    ∃ x z, (Core.writeRegister c page addr v w).2.out = w.out ++ [.appWrite page addr v x] ++ z ∧ ∀ o ∈ z, storesZone c o := by
  have hc : ¬(c.dmNg = true ∧ DmNg.isDecisionMatrix c page addr = true) := fun e => hn ((claimed_iff h page addr).mp e.2)
  refine ⟨?_, ?_⟩
  · unfold Core.readRegister
    rw [if_neg (fun e => hf.vscp ⟨e.1, e.2.1⟩), if_neg hf.dm, if_neg hc]
  · rw [writeRegister_app (by unfold accepted; rw [if_neg hf.vscp]; exact he) (appServed_iff.2 ⟨hf.vscp, hf.dm, hc⟩)]
    refine ⟨fun i _ => ?_, _, _, rfl, appStores_trace c _ page addr v⟩
    refine applyWrites_other fun x hx e => ?_
    have hm := Restore.layout_mono c
    have e3 : addrSubZone c = addrZone c + sizeZone c := rfl
    have e4 : addrManu c = addrSubZone c + sizeSubZone c := rfl
    rcases appStores_mem c _ page addr v x hx with ⟨hz, ha⟩ | ⟨hz, ha⟩
    · rw [sizeZone, if_pos hz] at e3; omega
    · rw [sizeSubZone, if_pos hz] at e4; omega

/-- C54, for a rule set of less than 256 bytes: each byte of the rule set has a register. -/
theorem C54_each_partial (c : Ctx) (h : Small c) (hpg : c.ngPage < 65536) (b : Nat) (hb : b < c.ngSize) :
    ∃ (page : U16) (addr : U8), page.toNat = c.ngPage ∧ addr.toNat = b ∧
      (Free c page addr → ∀ w, (Core.readRegister c page addr w).1 = w.ps (addrDmNg c + b)) := by
  have h1 := h.size
  have hp : (BitVec.ofNat 16 c.ngPage).toNat = c.ngPage := by rw [BitVec.toNat_ofNat]; omega
  have ha : (BitVec.ofNat 8 b).toNat = b := by rw [BitVec.toNat_ofNat]; omega
  refine ⟨BitVec.ofNat 16 c.ngPage, BitVec.ofNat 8 b, hp, ha, fun hf w => ?_⟩
  rw [C54_read_partial c h _ _ hf hp (by omega), ha]

/-- C54 is violated: with a rule set of more than 256 bytes all bytes from 256 on cannot be written by any register of the rule set. -/
theorem C54_index_violated (c : Ctx) (hng : c.dmNg = true) (page : U16) (addr : U8) (hf : Free c page addr)
    (hc : DmNg.isDecisionMatrix c page addr = true) (w : W) (he : writeEnable (w.ps (addrFlags c)) = true) (v : U8) (b : Nat) (hb : 256 ≤ b) (_ : b < c.ngSize) :
    (Core.writeRegister c page addr v w).2.ps (addrDmNg c + b) = w.ps (addrDmNg c + b) := by
  rw [write_claimed hng hf hc w he]
  simp only
  rw [if_neg]
  rintro ⟨-, e⟩
  have := (DmNg.regIndex c page addr).isLt
  omega

/-- C54 is violated: with a rule set of 256 bytes the page behind it is claimed, too, and each register of it is the same byte as the register of the page of
the rule set with the same address. -/
theorem C54_page_violated (c : Ctx) (hng : c.dmNg = true) (hsz : c.ngSize = 256) (hpg : c.ngPage + 1 < 65536) (addr v : U8) (w : W)
    (he : writeEnable (w.ps (addrFlags c)) = true) :
    let p : U16 := BitVec.ofNat 16 c.ngPage
    Free c p addr → Free c (p + 1) addr →
    (Core.readRegister c p addr (Core.writeRegister c (p + 1) addr v w).2).1 = v ∧
    (Core.writeRegister c (p + 1) addr v w).2.ps = (Core.writeRegister c p addr v w).2.ps := by
  intro p hf hf1
  have hp : p.toNat = c.ngPage := by show (BitVec.ofNat 16 c.ngPage).toNat = _; rw [BitVec.toNat_ofNat]; omega
  have hp1 : (p + 1).toNat = c.ngPage + 1 := by rw [BitVec.toNat_add, hp, show (1 : U16).toNat = 1 from rfl]; omega
  have ha := addr.isLt
  have hl : DmNg.lastPage c = c.ngPage + 1 := by unfold DmNg.lastPage; omega
  have ho : DmNg.lastPageOffset c = 255 := by unfold DmNg.lastPageOffset; rw [if_neg (by omega)]
  have c0 : DmNg.isDecisionMatrix c p addr = true := by
    unfold DmNg.isDecisionMatrix
    rw [if_pos (by omega), hl, hp, if_pos (by omega), if_neg (by omega)]
  have c1 : DmNg.isDecisionMatrix c (p + 1) addr = true := by
    unfold DmNg.isDecisionMatrix
    rw [if_pos (by omega), hl, hp1, if_pos (by omega), if_pos rfl, ho, decide_eq_true_iff]; omega
  have i0 : (DmNg.regIndex c p addr).toNat = addr.toNat := index_eq addr hp
  have i1 : (DmNg.regIndex c (p + 1) addr).toNat = addr.toNat := by
    unfold DmNg.regIndex
    rw [BitVec.toNat_ofNat, hp1]; omega
  refine ⟨?_, ?_⟩
  · rw [read_claimed hng hf c0, write_claimed hng hf1 c1 w he, i0, i1, if_pos (by omega)]
    simp only
    rw [if_pos ⟨by omega, trivial⟩]
  · rw [write_claimed hng hf c0 w he, write_claimed hng hf1 c1 w he, i0, i1]

/-! ### Concrete cases -/

example : Small Ex.ctx.toCfg ∧ Free Ex.ctx.toCfg 2 79 ∧ Free Ex.ctx.toCfg 2 80 :=
  ⟨⟨rfl, by decide⟩, ⟨by decide, by decide⟩, ⟨by decide, by decide⟩⟩

-- The last register of the rule set and the first one behind it, in a node which allows writing.
example : let w := node Ex.ctx allOk (mem 0x60) [.process none]
    writeEnable (w.ps (addrFlags Ex.ctx)) = true ∧
    (Core.readRegister Ex.ctx 2 79 (Core.writeRegister Ex.ctx 2 79 0x42 w).2).1 = 0x42 ∧ (Core.readRegister Ex.ctx 2 79 w).1 ≠ 0x42 ∧
    (Core.writeRegister Ex.ctx 2 80 0x42 w).2.out = w.out ++ [.appWrite 2 80 0x42 0x5A] := by
  decide +kernel

-- The configuration of `C54_index_violated` and `C54_page_violated`.
example : let c : Ctx := { Ex.ctx with ngSize := 256 }
    Free c.toCfg 2 5 ∧ Free c.toCfg 3 5 ∧ DmNg.isDecisionMatrix c.toCfg 3 5 = true ∧
    writeEnable ((node c allOk (mem 0x60) [.process none]).ps (addrFlags c)) = true :=
  ⟨⟨by decide, by decide⟩, ⟨by decide, by decide⟩, by decide, by decide +kernel⟩

example : let c : Ctx := { Ex.ctx with ngSize := 300 }
    Free c.toCfg 3 43 ∧ DmNg.isDecisionMatrix c.toCfg 3 43 = true ∧
    writeEnable ((node c allOk (mem 0x60) [.process none]).ps (addrFlags c)) = true :=
  ⟨⟨by decide, by decide⟩, by decide, by decide +kernel⟩

end Vscp.NgRegs
