/-
Registers of the decision matrix: C51.
-/
import Verif.Lemmas.RegWrite
import Verif.Props.Safety

namespace Vscp.DmRegs
open M Vscp.Spec Ps Vscp.Safety

/-- A matrix in the registers (no paged feature), of a size the row index can count. -/
structure Std (c : Cfg) : Prop where
  dm : c.dm = true
  paged : c.dmPaged = false
  rows : c.dmRows ≤ 255

/-- The byte of the matrix behind a register of the matrix. -/
def byteOf (c : Cfg) (page : U16) (addr : U8) : Nat :=
  if page.toNat = c.dmPage then addr.toNat - c.dmOffset.toNat else (page.toNat - c.dmPage) * 8 + (256 - c.dmOffset.toNat) + addr.toNat

theorem claimed_iff {c : Cfg} (h : Std c) (page : U16) (addr : U8) :
    Dm.isDecisionMatrix c page addr = true ↔ 0 < Dm.rows c ∧
      ((page.toNat = c.dmPage ∧ c.dmOffset.toNat ≤ addr.toNat ∧ (c.dmPage < Dm.lastPage c ∨ addr.toNat ≤ Dm.lastOffset c)) ∨
       (page.toNat ≠ c.dmPage ∧ page.toNat = Dm.lastPage c ∧ addr.toNat ≤ c.dmOffset.toNat) ∨
       (c.dmPage < page.toNat ∧ page.toNat < Dm.lastPage c)) := by
  have hp : Dm.startPage c = c.dmPage := by simp [Dm.startPage, h.paged]
  have ho : Dm.startOffset c = c.dmOffset := by simp [Dm.startOffset, h.paged]
  unfold Dm.isDecisionMatrix
  rw [if_neg (by simp [h.paged])]
  unfold Dm.isDecisionMatrixStd
  rw [hp, ho]
  grind

theorem claimed_bound {c : Cfg} (h : Std c) {page : U16} {addr : U8} (hc : Dm.isDecisionMatrix c page addr = true) :
    c.dmPage ≤ page.toNat ∧ page.toNat ≤ c.dmPage + 16 ∧ (page.toNat = c.dmPage → c.dmOffset.toNat ≤ addr.toNat) := by
  have hl : Dm.lastPage c ≤ c.dmPage + 16 ∧ c.dmPage ≤ Dm.lastPage c := by
    have hp : Dm.startPage c = c.dmPage := by simp [Dm.startPage, h.paged]
    have hr : Dm.rows c ≤ 510 := by have := h.rows; unfold Dm.rows; split <;> omega
    have ha : Dm.additionalPage c ≤ 1 := by unfold Dm.additionalPage; split <;> omega
    unfold Dm.lastPage Dm.pages
    omega
  rcases (claimed_iff h page addr).mp hc with ⟨-, ⟨h1, h2, -⟩ | ⟨h1, h2, -⟩ | ⟨h1, h2⟩⟩
  · exact ⟨by omega, by omega, fun _ => h2⟩
  · exact ⟨by omega, by omega, fun e => absurd e h1⟩
  · exact ⟨by omega, by omega, fun e => by omega⟩

theorem byte_eq {c : Cfg} (h : Std c) {page : U16} {addr : U8} (hc : Dm.isDecisionMatrix c page addr = true) :
    ∃ r o, Dm.calculateMatrixIndex c page addr = some (r, o) ∧ Dm.byteIndex r o = byteOf c page addr := by
  have hp : Dm.startPage c = c.dmPage := by simp [Dm.startPage, h.paged]
  have ho : Dm.startOffset c = c.dmOffset := by simp [Dm.startOffset, h.paged]
  obtain ⟨h1, h2, h3⟩ := claimed_bound h hc
  unfold Dm.calculateMatrixIndex
  rw [if_pos hc]
  refine ⟨_, _, rfl, ?_⟩
  have h4 := addr.isLt
  have h5 := c.dmOffset.isLt
  have h6 := page.isLt
  rw [hp, ho]
  unfold Dm.byteIndex byteOf
  have hsub : (page - BitVec.ofNat 16 c.dmPage).toNat = page.toNat - c.dmPage := by
    rw [BitVec.toNat_sub, BitVec.toNat_ofNat]; omega
  have hmul : ((page - BitVec.ofNat 16 c.dmPage) * 8).toNat = (page.toNat - c.dmPage) * 8 := by
    rw [BitVec.toNat_mul, hsub, show (8 : U16).toNat = 8 from rfl]; omega
  have ha16 : (addr.setWidth 16).toNat = addr.toNat := by rw [BitVec.toNat_setWidth]; omega
  have ho16 : (c.dmOffset.setWidth 16).toNat = c.dmOffset.toNat := by rw [BitVec.toNat_setWidth]; omega
  have key : ∀ b : U16, ∀ n, n < 2048 → b.toNat = n → (BitVec.ofNat 8 (b.toNat / 8)).toNat * 8 + (BitVec.ofNat 8 (b.toNat % 8)).toNat = n := by
    intro b n hn e
    rw [BitVec.toNat_ofNat, BitVec.toNat_ofNat, e]; omega
  split
  · rename_i e
    refine key _ _ (by omega) ?_
    rw [BitVec.toNat_add, hmul, BitVec.toNat_sub, ha16, ho16]
    have := h3 e
    omega
  · refine key _ _ (by omega) ?_
    rw [BitVec.toNat_add, BitVec.toNat_add, hmul, BitVec.toNat_add, BitVec.toNat_sub, ha16, ho16, show (0xFF : U16).toNat = 255 from rfl,
      show (1 : U16).toNat = 1 from rfl]
    omega

/-- Reading a register of the matrix. -/
theorem read_run {c : Ctx} (h : Std c) {page : U16} {addr : U8} (hv : ¬(page = 0 ∧ 0x80 ≤ addr.toNat))
    (hc : Dm.isDecisionMatrix c page addr = true) (w : W) :
    Core.readRegister c page addr w = (if byteOf c page addr < 8 * c.dmRows then w.ps (addrDm c + byteOf c page addr) else 0, w) := by
  obtain ⟨r, o, h1, h2⟩ := byte_eq h hc
  have hs : sizeDm c = c.dmRows * 8 := by unfold sizeDm; rw [if_pos h.dm]
  unfold Core.readRegister
  rw [if_neg (fun e => hv ⟨e.1, e.2.1⟩), if_pos ⟨h.dm, hc⟩]
  unfold Dm.readRegister
  rw [if_neg (by simp [h.paged])]
  unfold Dm.readRegisterStd
  rw [h1]
  simp only
  unfold readDm readIdx
  rw [h2, hs]
  by_cases hb : byteOf c page addr < 8 * c.dmRows
  · rw [if_pos (by omega), if_pos hb]; rfl
  · rw [if_neg (by omega), if_neg hb]; rfl

/-- Writing a register of the matrix. -/
theorem write_ps {c : Ctx} (h : Std c) {page : U16} {addr : U8} (hv : ¬(page = 0 ∧ 0x80 ≤ addr.toNat))
    (hc : Dm.isDecisionMatrix c page addr = true) (w : W) (he : writeEnable (w.ps (addrFlags c)) = true) (v : U8) :
    (Core.writeRegister c page addr v w).2.ps = fun a =>
      if byteOf c page addr < 8 * c.dmRows ∧ a = addrDm c + byteOf c page addr then v else w.ps a := by
  obtain ⟨r, o, h1, h2⟩ := byte_eq h hc
  have hs : sizeDm c = c.dmRows * 8 := by unfold sizeDm; rw [if_pos h.dm]
  rw [writeRegister_outer hv (by unfold accepted; rw [if_neg hv]; exact he)]
  simp only
  rw [if_pos ⟨h.dm, hc⟩]
  unfold Dm.writeRegister
  rw [if_neg (by simp [h.paged])]
  unfold Dm.writeRegisterStd
  rw [h1]
  simp only [bind_run]
  unfold readDm
  rw [readIdx_snd]
  unfold writeDm writeIdx
  rw [h2, hs]
  by_cases hb : byteOf c page addr < 8 * c.dmRows
  · rw [if_pos (by omega)]
    funext a
    simp only [hb, true_and]
    rfl
  · rw [if_neg (by omega)]
    funext a
    simp only [hb, false_and, if_false]
    rfl

/-! ### A matrix of a single page -/

/-- The matrix fits into one page, and the configuration is free of the additional page. -/
structure Single (c : Cfg) : Prop extends Std c where
  ext : c.dmExt = false
  few : c.dmRows < 32
  noMore : c.dmPage + c.dmOffset.toNat < 255

theorem single_claimed {c : Cfg} (h : Single c) (page : U16) (addr : U8) :
    Dm.isDecisionMatrix c page addr = true ↔ page.toNat = c.dmPage ∧ c.dmOffset.toNat ≤ addr.toNat ∧ addr.toNat < 8 * c.dmRows := by
  have hp : Dm.startPage c = c.dmPage := by simp [Dm.startPage, h.paged]
  have ho : Dm.startOffset c = c.dmOffset := by simp [Dm.startOffset, h.paged]
  have hr : Dm.rows c = c.dmRows := by simp [Dm.rows, h.ext]
  have h1 := h.few
  have h2 := h.noMore
  have hpg : Dm.pages c = 0 := by unfold Dm.pages; omega
  have ha : Dm.additionalPage c = 0 := by
    unfold Dm.additionalPage; rw [hp, ho, hpg, if_neg (by omega)]
  have hl : Dm.lastPage c = c.dmPage := by unfold Dm.lastPage; omega
  have hlo : Dm.lastOffset c = c.dmRows * 8 - 1 := by
    unfold Dm.lastOffset; rw [ha, hr, if_neg (by omega)]; omega
  rw [claimed_iff h.toStd, hl, hlo, hr]
  constructor
  · rintro ⟨h0, ⟨a, b, d⟩ | ⟨a, b, -⟩ | ⟨a, b⟩⟩
    · exact ⟨a, b, by omega⟩
    · exact absurd b a
    · omega
  · rintro ⟨a, b, d⟩
    exact ⟨by omega, .inl ⟨a, b, .inr (by omega)⟩⟩

/-- C51, for a matrix of a single page: a register belongs to the matrix if it is on the page of the matrix, not in front of the
offset and below eight times the number of rows.  Missing: other sizes, see the `_violated` theorems. -/
theorem C51_claimed_partial (c : Ctx) (h : Single c) (page : U16) (addr : U8) :
    Dm.isDecisionMatrix c page addr = true ↔ page.toNat = c.dmPage ∧ c.dmOffset.toNat ≤ addr.toNat ∧ addr.toNat < 8 * c.dmRows :=
  single_claimed h page addr

/-- C51, for a matrix of a single page: writing a register and reading it back returns the value, the byte of the matrix with the number of the
register in front of it is changed, and no other register of the matrix is. -/
theorem C51_write_partial (c : Ctx) (h : Single c) (w : W) (he : writeEnable (w.ps (addrFlags c)) = true) (page : U16) (addr v : U8)
    (hv : ¬(page = 0 ∧ 0x80 ≤ addr.toNat)) (hc : Dm.isDecisionMatrix c page addr = true) :
    (Core.readRegister c page addr (Core.writeRegister c page addr v w).2).1 = v ∧
    (Core.writeRegister c page addr v w).2.ps (addrDm c + (addr.toNat - c.dmOffset.toNat)) = v ∧
    (∀ a, a ≠ addrDm c + (addr.toNat - c.dmOffset.toNat) → (Core.writeRegister c page addr v w).2.ps a = w.ps a) ∧
    ∀ (page' : U16) (addr' : U8), Dm.isDecisionMatrix c page' addr' = true → ¬(page' = 0 ∧ 0x80 ≤ addr'.toNat) → (page', addr') ≠ (page, addr) →
      (Core.readRegister c page' addr' (Core.writeRegister c page addr v w).2).1 = (Core.readRegister c page' addr' w).1 := by
  obtain ⟨h1, h2, h3⟩ := (single_claimed h page addr).mp hc
  have hb : byteOf c page addr = addr.toNat - c.dmOffset.toNat := by unfold byteOf; rw [if_pos h1]
  have hps := write_ps h.toStd hv hc w he v
  refine ⟨?_, ?_, ?_, ?_⟩
  · rw [read_run h.toStd hv hc, hps, if_pos (by omega)]
    simp only
    rw [if_pos ⟨by omega, trivial⟩]
  · rw [hps, hb]
    simp only
    rw [if_pos ⟨by omega, trivial⟩]
  · intro a ha
    rw [hps, hb]
    simp only
    rw [if_neg (fun e => ha e.2)]
  · intro page' addr' hc' hv' hne
    obtain ⟨g1, g2, g3⟩ := (single_claimed h page' addr').mp hc'
    have hb' : byteOf c page' addr' = addr'.toNat - c.dmOffset.toNat := by unfold byteOf; rw [if_pos g1]
    rw [read_run h.toStd hv' hc', read_run h.toStd hv' hc', hps, hb, hb']
    simp only
    have hlt : addr'.toNat - c.dmOffset.toNat < 8 * c.dmRows := by omega
    rw [if_pos hlt, if_pos hlt, if_neg]
    rintro ⟨-, e⟩
    refine hne ?_
    rw [Prod.mk.injEq]
    exact ⟨BitVec.eq_of_toNat_eq (by omega), BitVec.eq_of_toNat_eq (by omega)⟩

/-- C51, for a matrix of a single page which starts with the first register of the page: each byte of the matrix has a register. -/
theorem C51_each_partial (c : Ctx) (h : Single c) (ho : c.dmOffset = 0) (b : Nat) (hb : b < 8 * c.dmRows) :
    ∃ (page : U16) (addr : U8), Dm.isDecisionMatrix c page addr = true ∧
      ∀ w, ¬(page = 0 ∧ 0x80 ≤ addr.toNat) → (Core.readRegister c page addr w).1 = w.ps (addrDm c + b) := by
  have h1 := h.few
  have h2 := h.noMore
  have hp : (BitVec.ofNat 16 c.dmPage).toNat = c.dmPage := by rw [BitVec.toNat_ofNat]; omega
  have ha : (BitVec.ofNat 8 b).toNat = b := by rw [BitVec.toNat_ofNat]; omega
  have hz : c.dmOffset.toNat = 0 := by rw [ho]; rfl
  have hc : Dm.isDecisionMatrix c (BitVec.ofNat 16 c.dmPage) (BitVec.ofNat 8 b) = true := by
    rw [single_claimed h]; omega
  refine ⟨BitVec.ofNat 16 c.dmPage, BitVec.ofNat 8 b, hc, fun w hv => ?_⟩
  have hby : byteOf c (BitVec.ofNat 16 c.dmPage) (BitVec.ofNat 8 b) = b := by unfold byteOf; rw [if_pos hp]; omega
  rw [read_run h.toStd hv hc, hby]
  simp only
  rw [if_pos hb]

/-- C51 is violated: if the matrix does not start with the first register of the page, the last byte of it has no register. -/
theorem C51_offset_violated (c : Ctx) (h : Single c) (ho : c.dmOffset ≠ 0) (page : U16) (addr : U8) (hv : ¬(page = 0 ∧ 0x80 ≤ addr.toNat))
    (hc : Dm.isDecisionMatrix c page addr = true) (w : W) (he : writeEnable (w.ps (addrFlags c)) = true) (v : U8) :
    (Core.writeRegister c page addr v w).2.ps (addrDm c + (8 * c.dmRows - 1)) = w.ps (addrDm c + (8 * c.dmRows - 1)) := by
  obtain ⟨h1, h2, h3⟩ := (single_claimed h page addr).mp hc
  have hz : c.dmOffset.toNat ≠ 0 := fun e => ho (BitVec.eq_of_toNat_eq e)
  rw [(C51_write_partial c h w he page addr v hv hc).2.2.1]
  omega

/-! ### More than one page -/

/-- C51 is violated: with more than 32 rows the flags of row 32 cannot be written by a register. -/
theorem C51_pages_violated (c : Ctx) (h : Std c) (hr : 33 ≤ c.dmRows) (ho : c.dmOffset = 0) (page : U16) (addr : U8)
    (hv : ¬(page = 0 ∧ 0x80 ≤ addr.toNat)) (hc : Dm.isDecisionMatrix c page addr = true) (w : W)
    (he : writeEnable (w.ps (addrFlags c)) = true) (v : U8) :
    257 < 8 * c.dmRows ∧ (Core.writeRegister c page addr v w).2.ps (addrDm c + 257) = w.ps (addrDm c + 257) := by
  refine ⟨by omega, ?_⟩
  rw [write_ps h hv hc w he]
  simp only
  rw [if_neg]
  rintro ⟨-, e⟩
  have h1 := claimed_bound h hc
  have h2 := addr.isLt
  have hz : c.dmOffset.toNat = 0 := by rw [ho]; rfl
  have : byteOf c page addr = 257 := by omega
  unfold byteOf at this
  split at this <;> omega

/-- C51 is violated: with 64 rows and more different registers are the same byte of the matrix. -/
theorem C51_collision_violated (c : Ctx) (h : Std c) (hr : 64 ≤ c.dmRows) (ho : c.dmOffset = 0) (hp : c.dmPage + 2 < 65536) (w : W)
    (he : writeEnable (w.ps (addrFlags c)) = true) (v : U8) :
    let p : U16 := BitVec.ofNat 16 c.dmPage
    Dm.isDecisionMatrix c (p + 1) 8 = true ∧ Dm.isDecisionMatrix c (p + 2) 0 = true ∧
    (Core.readRegister c (p + 2) 0 (Core.writeRegister c (p + 1) 8 v w).2).1 = v := by
  intro p
  have hz : c.dmOffset.toNat = 0 := by rw [ho]; rfl
  have h1 : (p + 1).toNat = c.dmPage + 1 := by
    show (BitVec.ofNat 16 c.dmPage + 1).toNat = _
    rw [BitVec.toNat_add, BitVec.toNat_ofNat, show (1 : U16).toNat = 1 from rfl]; omega
  have h2 : (p + 2).toNat = c.dmPage + 2 := by
    show (BitVec.ofNat 16 c.dmPage + 2).toNat = _
    rw [BitVec.toNat_add, BitVec.toNat_ofNat, show (2 : U16).toNat = 2 from rfl]; omega
  have hs : Dm.startPage c = c.dmPage := by simp [Dm.startPage, h.paged]
  have hrr : 64 ≤ Dm.rows c := by unfold Dm.rows; split <;> omega
  have hl : c.dmPage + 2 ≤ Dm.lastPage c := by unfold Dm.lastPage Dm.pages; omega
  have c1 : Dm.isDecisionMatrix c (p + 1) 8 = true :=
    (claimed_iff h _ _).mpr ⟨by omega, .inr (.inr ⟨by omega, by omega⟩)⟩
  have c2 : Dm.isDecisionMatrix c (p + 2) 0 = true := by
    rw [claimed_iff h]
    refine ⟨by omega, .inr ?_⟩
    by_cases e : (p + 2).toNat = Dm.lastPage c
    · exact .inl ⟨by omega, e, by simp⟩
    · exact .inr ⟨by omega, by omega⟩
  have n1 : ¬((p + 1) = 0 ∧ 0x80 ≤ (8 : U8).toNat) := fun e => absurd e.2 (by decide)
  have n2 : ¬((p + 2) = 0 ∧ 0x80 ≤ (0 : U8).toNat) := fun e => absurd e.2 (by decide)
  have b1 : byteOf c (p + 1) 8 = 272 := by
    unfold byteOf; rw [if_neg (by omega), h1, show (8 : U8).toNat = 8 from rfl]; omega
  have b2 : byteOf c (p + 2) 0 = 272 := by
    unfold byteOf; rw [if_neg (by omega), h2, show (0 : U8).toNat = 0 from rfl]; omega
  refine ⟨c1, c2, ?_⟩
  rw [read_run h n2 c2, write_ps h n1 c1 w he, b1, b2]
  simp only
  rw [if_pos (by omega), if_pos ⟨by omega, trivial⟩]

/-- C51 is violated: the registers of the extension rows are claimed, but writing them does nothing and they are read as zero. -/
theorem C51_extension_violated (c : Ctx) (h : Std c) (hx : c.dmExt = true) (hr : c.dmRows < 16) (ho : c.dmOffset = 0) (hp : c.dmPage < 255)
    (b : Nat) (h1 : 8 * c.dmRows ≤ b) (h2 : b < 16 * c.dmRows) (w : W) (he : writeEnable (w.ps (addrFlags c)) = true) (v : U8) :
    let p : U16 := BitVec.ofNat 16 c.dmPage
    Dm.isDecisionMatrix c p (BitVec.ofNat 8 b) = true ∧
    (¬(p = 0 ∧ 0x80 ≤ (BitVec.ofNat 8 b).toNat) → (Core.writeRegister c p (BitVec.ofNat 8 b) v w).2.ps = w.ps ∧
      (Core.readRegister c p (BitVec.ofNat 8 b) w).1 = 0) := by
  intro p
  have hz : c.dmOffset.toNat = 0 := by rw [ho]; rfl
  have hpn : p.toNat = c.dmPage := by show (BitVec.ofNat 16 c.dmPage).toNat = _; rw [BitVec.toNat_ofNat]; omega
  have ha : (BitVec.ofNat 8 b).toNat = b := by rw [BitVec.toNat_ofNat]; omega
  have hs : Dm.startPage c = c.dmPage := by simp [Dm.startPage, h.paged]
  have hso : Dm.startOffset c = c.dmOffset := by simp [Dm.startOffset, h.paged]
  have hrr : Dm.rows c = 2 * c.dmRows := by simp [Dm.rows, hx]
  have hpg : Dm.pages c = 0 := by unfold Dm.pages; omega
  have had : Dm.additionalPage c = 0 := by
    unfold Dm.additionalPage; rw [hs, hso, hpg, if_neg (by omega)]
  have hlo : Dm.lastOffset c = 2 * c.dmRows * 8 - 1 := by
    unfold Dm.lastOffset; rw [had, hrr, if_neg (by omega)]; omega
  have hc : Dm.isDecisionMatrix c p (BitVec.ofNat 8 b) = true :=
    (claimed_iff h _ _).mpr ⟨by omega, .inl ⟨hpn, by omega, .inr (by omega)⟩⟩
  have hb : byteOf c p (BitVec.ofNat 8 b) = b := by unfold byteOf; rw [if_pos hpn]; omega
  refine ⟨hc, fun hv => ⟨?_, ?_⟩⟩
  · rw [write_ps h hv hc w he, hb]
    funext a
    rw [if_neg (fun e => by omega)]
  · rw [read_run h hv hc, hb]
    simp only
    rw [if_neg (by omega)]

/-! ### Paged feature -/

/-- C51 with the paged feature: after writing a valid number to register 0x7E, register 0x7F is this byte of the matrix. -/
theorem C51_paged (c : Ctx) (hd : c.dm = true) (hp : c.dmPaged = true) (hr : c.dmRows ≤ 255) (w : W)
    (he : writeEnable (w.ps (addrFlags c)) = true) (i v : U8) (hi : i.toNat < 8 * c.dmRows) :
    let w1 := (Core.writeRegister c 0 0x7E i w).2
    let w2 := (Core.writeRegister c 0 0x7F v w1).2
    w1.ps = w.ps ∧ (Core.readRegister c 0 0x7E w1).1 = i ∧ (Core.readRegister c 0 0x7F w1).1 = w.ps (addrDm c + i.toNat) ∧
    w2.ps = (fun a => if a = addrDm c + i.toNat then v else w.ps a) ∧ (Core.readRegister c 0 0x7E w2).1 = i ∧
    (Core.readRegister c 0 0x7F w2).1 = v := by
  have hs : sizeDm c = c.dmRows * 8 := by unfold sizeDm; rw [if_pos hd]
  have hE : ¬((0 : U16) = 0 ∧ 0x80 ≤ (0x7E : U8).toNat) := fun e => absurd e.2 (by decide)
  have hF : ¬((0 : U16) = 0 ∧ 0x80 ≤ (0x7F : U8).toNat) := fun e => absurd e.2 (by decide)
  have cE : c.dm = true ∧ Dm.isDecisionMatrix c 0 0x7E = true := ⟨hd, by simp [Dm.isDecisionMatrix, hp, Dm.isDecisionMatrixPaged]⟩
  have cF : c.dm = true ∧ Dm.isDecisionMatrix c 0 0x7F = true := ⟨hd, by simp [Dm.isDecisionMatrix, hp, Dm.isDecisionMatrixPaged]⟩
  have hrr : c.dmRows ≤ Dm.rows c ∧ Dm.rows c ≤ 510 := by unfold Dm.rows; split <;> omega
  have hlast : (BitVec.ofNat 16 (Dm.rows c) * 8 - 1 : U16).toNat = Dm.rows c * 8 - 1 := by
    rw [BitVec.toNat_sub, BitVec.toNat_mul, BitVec.toNat_ofNat, show (8 : U16).toNat = 8 from rfl, show (1 : U16).toNat = 1 from rfl]; omega
  have hw1 : (Core.writeRegister c 0 0x7E i w).2 = { w with dm := { w.dm with idx := i } } := by
    rw [writeRegister_outer hE (by unfold accepted; rw [if_neg hE]; exact he)]
    simp only
    rw [if_pos cE]
    unfold Dm.writeRegister
    rw [if_pos hp]
    unfold Dm.writeRegisterPaged
    rw [if_pos rfl, if_pos rfl]
    simp only [bind_run, whenM_run, hlast]
    rw [if_pos (by omega)]
    rfl
  have rE : ∀ w : W, (Core.readRegister c 0 0x7E w).1 = w.dm.idx := by
    intro w
    unfold Core.readRegister
    rw [if_neg (fun e => hE ⟨e.1, e.2.1⟩), if_pos cE]
    unfold Dm.readRegister
    rw [if_pos hp]
    rfl
  have rF : ∀ w : W, w.dm.idx = i → (Core.readRegister c 0 0x7F w).1 = w.ps (addrDm c + i.toNat) := by
    intro w hx
    unfold Core.readRegister
    rw [if_neg (fun e => hF ⟨e.1, e.2.1⟩), if_pos cF]
    unfold Dm.readRegister
    rw [if_pos hp]
    unfold Dm.readRegisterPaged
    rw [if_pos rfl, if_neg (by decide), if_pos rfl]
    simp only [bind_run, get_run, hx]
    rw [if_neg (by omega)]
    unfold readDm readIdx
    rw [hs, if_pos (by omega)]
    show w.ps _ = _
    rw [show i.toNat / 8 * 8 + i.toNat % 8 = i.toNat by omega]
  have wF : ∀ w : W, writeEnable (w.ps (addrFlags c)) = true → w.dm.idx = i →
      (Core.writeRegister c 0 0x7F v w).2.ps = (fun a => if a = addrDm c + i.toNat then v else w.ps a) ∧
      (Core.writeRegister c 0 0x7F v w).2.dm = w.dm := by
    intro w he hx
    rw [writeRegister_outer hF (by unfold accepted; rw [if_neg hF]; exact he)]
    simp only
    rw [if_pos cF]
    unfold Dm.writeRegister
    rw [if_pos hp]
    unfold Dm.writeRegisterPaged
    rw [if_pos rfl, if_neg (by decide), if_pos rfl]
    simp only [bind_run, get_run, hx]
    rw [if_neg (by omega)]
    unfold writeDm writeIdx
    rw [hs, show i.toNat / 8 * 8 + i.toNat % 8 = i.toNat by omega]
    simp only [bind_run]
    rw [if_pos (by omega)]
    exact ⟨rfl, rfl⟩
  intro w1 w2
  have e1 : w1 = { w with dm := { w.dm with idx := i } } := hw1
  have hp1 : w1.ps = w.ps := by rw [e1]
  have hx1 : w1.dm.idx = i := by rw [e1]
  obtain ⟨a, b⟩ := wF w1 (by rw [hp1]; exact he) hx1
  have ea : w2.ps = fun a => if a = addrDm c + i.toNat then v else w1.ps a := a
  have eb : w2.dm = w1.dm := b
  refine ⟨hp1, by rw [rE, hx1], by rw [rF w1 hx1, hp1], by rw [ea, hp1], by rw [rE, eb, hx1], ?_⟩
  rw [rF w2 (by rw [eb, hx1]), ea]
  simp only [if_true]

/-! ### Concrete cases -/

example : Single Ex.ctx.toCfg := ⟨⟨rfl, rfl, by decide⟩, rfl, by decide, by decide⟩

-- The third register of the page of the matrix, in a node which allows writing: the class mask of the first row.
example : let w := node Ex.ctx allOk (mem 0x60) [.process none]
    writeEnable (w.ps (addrFlags Ex.ctx)) = true ∧ Dm.isDecisionMatrix Ex.ctx 1 2 = true ∧
    (Core.readRegister Ex.ctx 1 2 (Core.writeRegister Ex.ctx 1 2 0x42 w).2).1 = 0x42 ∧
    (Core.readRegister Ex.ctx 1 2 w).1 ≠ 0x42 := by
  decide +kernel

-- A configuration with an offset, one with 64 rows, one with extension rows and one with the paged feature.
example : Single ({ Ex.ctx with dmOffset := 16 } : Ctx).toCfg ∧ Std ({ Ex.ctx with dmRows := 64 } : Ctx).toCfg ∧
    Std ({ Ex.ctx with dmExt := true } : Ctx).toCfg :=
  ⟨⟨⟨rfl, rfl, by decide⟩, rfl, by decide, by decide⟩, ⟨rfl, rfl, by decide⟩, ⟨rfl, rfl, by decide⟩⟩

example : let c : Ctx := { Ex.ctx with dmPaged := true, logger := false }
    let w := node c allOk (mem 0x60) [.process none]
    writeEnable (w.ps (addrFlags c)) = true ∧ (13 : U8).toNat < 8 * c.dmRows ∧
    (Core.readRegister c 0 0x7F (Core.writeRegister c 0 0x7F 0x42 (Core.writeRegister c 0 0x7E 13 w).2).2).1 = 0x42 := by
  decide +kernel

end Vscp.DmRegs
