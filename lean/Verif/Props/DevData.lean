/-
Properties C14, C15: device data.
-/
import Verif.Lemmas.Restore
import Verif.Spec.DevData
import Verif.Example.Ctx

namespace Vscp.DevData
open Vscp.Spec M

/-- The node after its factory settings were restored. -/
abbrev restored (c : Ctx) (w : W) : W := (Core.restoreFactoryDefaultSettings c w).2

theorem restored_ps (c : Ctx) (w : W) : (restored c w).ps = applyWrites w.ps (Restore.all c) := by
  rw [restored, restore_run]

/-! ### C14 -/

/-- C14: after a factory restore, for every configuration and prior memory content, the GUID reads as configured; byte 15 is the first
of the configured array.  (A GUID provided by the application, `guidExt`, is not kept by the
framework.) -/
theorem C14_guid (c : Ctx) (w : W) (h : c.guidPs = true ∨ c.guidExt = false) (i : Nat) (hi : i < 16) :
    (getGuid c i (restored c w)).1 = c.guid[15 - i] := by
  have hg : c.guid.toList.getD (15 - i) 0 = c.guid[15 - i] := by
    rw [List.getD_eq_getElem?_getD, List.getElem?_eq_getElem (by simp; omega)]; simp
  unfold getGuid
  by_cases hp : c.guidPs = true
  · rw [if_pos hp, Ps.readGuid, Ps.readIdx, if_pos (by simp [Ps.sizeGuid, hp]; omega), psRead8_run, restored_ps,
      Restore.guid_at _ hp _ _ hi, hg]
  · have he : ¬ c.guidExt = true := by rcases h with h | h <;> simp [h] at *
    rw [if_neg hp, if_neg he, if_pos (by omega), pure_run, show 16 - i - 1 = 15 - i by omega, hg]

/-- C14: zone and sub-zone. -/
theorem C14_zone (c : Ctx) (w : W) :
    (getZone c (restored c w)).1 = c.zone ∧ (getSubZone c (restored c w)).1 = c.subZone := by
  constructor
  · unfold getZone; split
    · rename_i h; rw [Ps.readZone, psRead8_run, restored_ps]; exact Restore.zone_at _ h _
    · rfl
  · unfold getSubZone; split
    · rename_i h; rw [Ps.readSubZone, psRead8_run, restored_ps]; exact Restore.subZone_at _ h _
    · rfl

theorem memByte_value (c : Cfg) (x : U32) :
    ofMemory c.littleEndian [memByte c x 0, memByte c x 1, memByte c x 2, memByte c x 3] = x.toNat := by
  have hx := x.isLt
  unfold ofMemory memByte
  split <;> simp [ofBytesBe, ofBytesLe, Nat.shiftRight_eq_div_pow] <;> omega

/-- C14: the four bytes of the manufacturer device id and sub device id are, in the byte order of the
platform, the configured numbers. -/
theorem C14_manufacturer (c : Ctx) (w : W) :
    ofMemory c.littleEndian ((List.range 4).map fun i => (getManu c i (restored c w)).1) = c.manu.toNat ∧
    ofMemory c.littleEndian ((List.range 4).map fun i => (getManuSub c i (restored c w)).1) = c.manuSub.toNat := by
  have h1 : ∀ i, i < 4 → (getManu c i (restored c w)).1 = memByte c c.manu i := by
    intro i hi
    unfold getManu; split
    · rename_i h
      rw [Ps.readManu, Ps.readIdx, if_pos (by simp [Ps.sizeManu, h]; omega), psRead8_run, restored_ps]
      exact Restore.manu_at _ h _ _ hi
    · rfl
  have h2 : ∀ i, i < 4 → (getManuSub c i (restored c w)).1 = memByte c c.manuSub i := by
    intro i hi
    unfold getManuSub; split
    · rename_i h
      rw [Ps.readManuSub, Ps.readIdx, if_pos (by simp [Ps.sizeManuSub, h]; omega), psRead8_run, restored_ps]
      exact Restore.manuSub_at _ h _ _ hi
    · rfl
  constructor
  · rw [show List.range 4 = [0, 1, 2, 3] from rfl]
    simp only [List.map_cons, List.map_nil, h1 0 (by omega), h1 1 (by omega), h1 2 (by omega), h1 3 (by omega)]
    exact memByte_value c _
  · rw [show List.range 4 = [0, 1, 2, 3] from rfl]
    simp only [List.map_cons, List.map_nil, h2 0 (by omega), h2 1 (by omega), h2 2 (by omega), h2 3 (by omega)]
    exact memByte_value c _

/-- C14: the 32 bytes of the MDF URL are the configured characters, padded with zeros. -/
theorem C14_mdfUrl (c : Ctx) (w : W) (hl : c.mdfUrl.length ≤ 32) :
    (List.range 32).map (fun i => (getMdf c i (restored c w)).1) =
      c.mdfUrl ++ List.replicate (32 - c.mdfUrl.length) 0 := by
  have h1 : ∀ i, i < 32 → (getMdf c i (restored c w)).1 = c.mdfUrl.getD i 0 := by
    intro i hi
    unfold getMdf; split
    · rename_i h
      rw [Ps.readMdf, Ps.readIdx, if_pos (by simp [Ps.sizeMdf, h]; omega), psRead8_run, restored_ps]
      exact Restore.mdf_at _ h _ _ hi
    · rfl
  apply List.ext_getElem
  · simp; omega
  · intro i hi hi2
    simp only [List.length_map, List.length_range] at hi
    simp only [List.getElem_map, List.getElem_range]
    rw [h1 i hi, List.getElem_append]
    split
    · rename_i hlt; rw [List.getD_eq_getElem?_getD, List.getElem?_eq_getElem hlt]; rfl
    · rename_i hlt; simp [List.getD_eq_getElem?_getD, List.getElem?_eq_none (by omega : c.mdfUrl.length ≤ i)]

example : (Ex.ctx.guidPs = true ∨ Ex.ctx.guidExt = false) ∧ Ex.ctx.mdfUrl.length ≤ 32 ∧ Ex.ctx.guid[15 - 0] = 16 := by
  decide

/-! ### C15 -/

/-- C15 is violated: the configured number is shifted by the byte number instead of by eight times the byte
number.  Family code 0x01020304 reads as 04 82 C1 60 (least significant byte first). -/
theorem C15_family_violated : ∃ (c : Ctx), c.familyEn = true ∧ c.famCode = 0x01020304 ∧ ∀ w,
    (List.range 4).map (fun i => (getFam c i (restored c w)).1) = [0x04, 0x82, 0xC1, 0x60] ∧
    ofBytesLe ((List.range 4).map fun i => (getFam c i (restored c w)).1) ≠ c.famCode.toNat := by
  refine ⟨Ex.ctx, rfl, rfl, fun w => ?_⟩
  have h : ∀ i, i < 4 → (getFam Ex.ctx i (restored Ex.ctx w)).1 = ffToZero (shiftByte 0x01020304 i) := by
    intro i hi
    unfold getFam
    rw [if_pos (show Ex.ctx.familyEn = true from rfl), if_pos (by rfl), map_run, Ps.readFam, Ps.readIdx, if_pos (by simp [Ps.sizeFam, Ex.ctx]; omega),
      psRead8_run, restored_ps, Restore.fam_at _ rfl rfl _ _ hi]
    rfl
  have : (List.range 4).map (fun i => (getFam Ex.ctx i (restored Ex.ctx w)).1) = [0x04, 0x82, 0xC1, 0x60] := by
    rw [show List.range 4 = [0, 1, 2, 3] from rfl]
    simp only [List.map_cons, List.map_nil, h 0 (by omega), h 1 (by omega), h 2 (by omega), h 3 (by omega)]
    decide
  rw [this]
  exact ⟨rfl, by decide⟩

/-- C15 is violated in the same way for the device type. -/
theorem C15_type_violated : ∃ (c : Ctx), c.familyEn = true ∧ c.devType = 0x05060708 ∧ ∀ w,
    ofBytesLe ((List.range 4).map fun i => (getType c i (restored c w)).1) ≠ c.devType.toNat := by
  refine ⟨Ex.ctx, rfl, rfl, fun w => ?_⟩
  have h : ∀ i, i < 4 → (getType Ex.ctx i (restored Ex.ctx w)).1 = ffToZero (shiftByte 0x05060708 i) := by
    intro i hi
    unfold getType
    rw [if_pos (show Ex.ctx.familyEn = true from rfl), if_pos (by rfl), map_run, Ps.readType, Ps.readIdx, if_pos (by simp [Ps.sizeType, Ex.ctx]; omega),
      psRead8_run, restored_ps, Restore.type_at _ rfl rfl _ _ hi]
    rfl
  rw [show List.range 4 = [0, 1, 2, 3] from rfl]
  simp only [List.map_cons, List.map_nil, h 0 (by omega), h 1 (by omega), h 2 (by omega), h 3 (by omega)]
  decide

/-- C15, what holds: byte 0 of the family code and of the device type is the least significant byte of the configured number (0xFF
reads as 0), and a configured 0 reads as 0 in all bytes.  Missing: bytes 1 - 3 of every other number. -/
theorem C15_partial (c : Ctx) (he : c.familyEn = true) (w : W) :
    (getFam c 0 (restored c w)).1.toNat = (if c.famCode.toNat % 256 = 255 then 0 else c.famCode.toNat % 256) ∧
    (getType c 0 (restored c w)).1.toNat = (if c.devType.toNat % 256 = 255 then 0 else c.devType.toNat % 256) ∧
    (c.famCode = 0 → ∀ i, i < 4 → (getFam c i (restored c w)).1 = 0) ∧
    (c.devType = 0 → ∀ i, i < 4 → (getType c i (restored c w)).1 = 0) := by
  have h : ∀ i, i < 4 → (getFam c i (restored c w)).1 = ffToZero (shiftByte c.famCode i) := by
    intro i hi
    unfold getFam
    rw [if_pos he]
    split
    · rename_i hp
      rw [map_run, Ps.readFam, Ps.readIdx, if_pos (by simp [Ps.sizeFam, hp]; omega),
        psRead8_run, restored_ps, Restore.fam_at _ hp he _ _ hi]
    · rfl
  have h' : ∀ i, i < 4 → (getType c i (restored c w)).1 = ffToZero (shiftByte c.devType i) := by
    intro i hi
    unfold getType
    rw [if_pos he]
    split
    · rename_i hp
      rw [map_run, Ps.readType, Ps.readIdx, if_pos (by simp [Ps.sizeType, hp]; omega),
        psRead8_run, restored_ps, Restore.type_at _ hp he _ _ hi]
    · rfl
  have key : ∀ x : U32, (ffToZero (shiftByte x 0)).toNat = if x.toNat % 256 = 255 then 0 else x.toNat % 256 := by
    intro x
    unfold ffToZero shiftByte
    have : (0xFF : U8) = (x >>> 0).setWidth 8 ↔ x.toNat % 256 = 255 := by
      rw [← BitVec.toNat_inj]; simp; omega
    by_cases hx : x.toNat % 256 = 255
    · rw [if_pos (this.mpr hx), if_pos hx]; rfl
    · rw [if_neg (fun h => hx (this.mp h)), if_neg hx]; simp
  have key0 : ∀ i, ffToZero (shiftByte 0 i) = 0 := by
    intro i; simp [ffToZero, shiftByte]
  refine ⟨?_, ?_, ?_, ?_⟩
  · rw [h 0 (by omega), key]
  · rw [h' 0 (by omega), key]
  · intro hc i hi; rw [h i hi, hc, key0]
  · intro hc i hi; rw [h' i hi, hc, key0]

example : Ex.ctx.familyEn = true ∧ Ex.ctx.famCode.toNat % 256 = 4 := by decide

/-- C15: exactly what the eight registers hold after the factory settings were restored, for every configuration: register 0x9D - `i` (0xA1 - `i`) holds the lower eight bits of
the family code (device type) divided by 2 to the power of `i` (0xFF reads as 0), and 0 if the node has no family code.  Missing: it should be divided by 256 to the power of
`i`. -/
theorem C15_registers_partial (c : Ctx) (w : W) (i : Nat) (hi : i < 4) :
    (∀ a : U8, a.toNat = 0x9D - i → (Core.readRegister c 0 a (restored c w)).1.toNat =
      if c.familyEn ∧ c.famCode.toNat / 2 ^ i % 256 ≠ 255 then c.famCode.toNat / 2 ^ i % 256 else 0) ∧
    (∀ a : U8, a.toNat = 0xA1 - i → (Core.readRegister c 0 a (restored c w)).1.toNat =
      if c.familyEn ∧ c.devType.toNat / 2 ^ i % 256 ≠ 255 then c.devType.toNat / 2 ^ i % 256 else 0) := by
  have key : ∀ x : U32, (ffToZero (shiftByte x i)).toNat = if x.toNat / 2 ^ i % 256 ≠ 255 then x.toNat / 2 ^ i % 256 else 0 := by
    intro x
    unfold ffToZero shiftByte
    have e : ((x >>> i).setWidth 8 : U8).toNat = x.toNat / 2 ^ i % 256 := by simp [Nat.shiftRight_eq_div_pow]
    have : (0xFF : U8) = (x >>> i).setWidth 8 ↔ x.toNat / 2 ^ i % 256 = 255 := by
      rw [← BitVec.toNat_inj, e]
      show 255 = _ ↔ _
      omega
    by_cases hx : x.toNat / 2 ^ i % 256 = 255
    · rw [if_pos (this.mpr hx), if_neg (fun h => h hx)]; rfl
    · rw [if_neg (fun h => hx (this.mp h)), if_pos hx, e]
  constructor
  · intro a ha
    have e : Core.readRegister c 0 a = getFam c i := by
      unfold Core.readRegister
      have := a.isLt
      rw [if_pos ⟨rfl, by omega, by omega⟩]
      unfold Core.readVscpRegister
      simp only
      rw [if_neg (by omega), if_neg (by omega), if_neg (by omega), if_neg (by omega), if_neg (by omega), if_neg (by omega), if_neg (by omega), if_neg (by omega),
        if_neg (by omega), if_neg (by omega), if_neg (by omega), if_neg (by omega), if_neg (by omega), if_neg (by omega), if_neg (by omega), if_neg (by omega),
        if_pos (by omega), show 3 - (a.toNat - 0x9A) = i by omega]
    rw [e]
    unfold getFam
    by_cases he : c.familyEn = true
    · rw [if_pos he]
      have : ((if c.famPs then ffToZero <$> Ps.readFam c i else pure (ffToZero (shiftByte c.famCode i)) : M U8) (restored c w)).1 = ffToZero (shiftByte c.famCode i) := by
        split
        · rename_i hp
          rw [map_run, Ps.readFam, Ps.readIdx, if_pos (by simp [Ps.sizeFam, hp]; omega), psRead8_run, restored_ps, Restore.fam_at _ hp he _ _ hi]
        · rfl
      rw [this, key]
      simp [he]
    · rw [if_neg he, if_neg (fun h => he h.1)]
      rfl
  · intro a ha
    have e : Core.readRegister c 0 a = getType c i := by
      unfold Core.readRegister
      have := a.isLt
      rw [if_pos ⟨rfl, by omega, by omega⟩]
      unfold Core.readVscpRegister
      simp only
      rw [if_neg (by omega), if_neg (by omega), if_neg (by omega), if_neg (by omega), if_neg (by omega), if_neg (by omega), if_neg (by omega), if_neg (by omega),
        if_neg (by omega), if_neg (by omega), if_neg (by omega), if_neg (by omega), if_neg (by omega), if_neg (by omega), if_neg (by omega), if_neg (by omega),
        if_neg (by omega), if_pos (by omega), show 3 - (a.toNat - 0x9E) = i by omega]
    rw [e]
    unfold getType
    by_cases he : c.familyEn = true
    · rw [if_pos he]
      have : ((if c.typePs then ffToZero <$> Ps.readType c i else pure (ffToZero (shiftByte c.devType i)) : M U8) (restored c w)).1 = ffToZero (shiftByte c.devType i) := by
        split
        · rename_i hp
          rw [map_run, Ps.readType, Ps.readIdx, if_pos (by simp [Ps.sizeType, hp]; omega), psRead8_run, restored_ps, Restore.type_at _ hp he _ _ hi]
        · rfl
      rw [this, key]
      simp [he]
    · rw [if_neg he, if_neg (fun h => he h.1)]
      rfl

end Vscp.DevData
