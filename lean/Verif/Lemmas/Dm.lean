/-
The decision matrix: when a row fires, and what the loop over all rows does.
-/
import Verif.Spec.Dm
import Verif.Lemmas.Cycle
import Verif.Props.Util

namespace Vscp.DmProps
open M Vscp.Spec Vscp.Spec.Dm

/-- The matrix as it is stored. -/
def matrix (c : Cfg) (ps : Nat → U8) : Matrix where
  rows := c.dmRows
  ext := c.dmExt
  zone := if c.zonePs then ps (Ps.addrZone c) else c.zone
  subZone := if c.subZonePs then ps (Ps.addrSubZone c) else c.subZone
  row i k := ps (Ps.addrDm c + (i * 8 + k))
  extRow i k := ps (Ps.addrDmExt c + (i * 8 + k))

theorem flag_iff (b : U8) (k : Nat) (m : U8) (h : m = 1#8 <<< k) (hk : k < 8) : b &&& m ≠ 0 ↔ b.getLsbD k = true := by
  subst h
  constructor
  · intro h
    cases hb : b.getLsbD k with
    | true => rfl
    | false =>
      exfalso; apply h
      apply BitVec.eq_of_getLsbD_eq
      intro i hi
      rw [BitVec.getLsbD_and, BitVec.getLsbD_shiftLeft, BitVec.getLsbD_one]
      by_cases e : i = k
      · subst e; simp [hb]
      · simp; intro _ _ _; omega
  · intro h e
    have := congrArg (fun x => BitVec.getLsbD x k) e
    simp [hk] at this
    rw [BitVec.getLsbD_eq_getElem hk, this] at h
    simp at h

theorem selected8 (mask filter value : U8) :
    ¬ (mask ≠ 0 ∧ filter ≠ mask &&& value) ↔ Selected 8 mask.getLsbD filter.getLsbD value.getLsbD := by
  unfold Selected
  rw [Classical.not_and_iff_not_or_not, Classical.not_not, Classical.not_not]
  refine or_congr ⟨fun h i _ => by rw [h]; simp, fun h => BitVec.eq_of_getLsbD_eq fun i hi => by rw [h i hi]; simp⟩
    ⟨fun h i _ => by rw [h, BitVec.getLsbD_and], fun h => BitVec.eq_of_getLsbD_eq fun i hi => by rw [h i hi, BitVec.getLsbD_and]⟩

theorem word9_bit (b : U8) (f : Bool) (i : Nat) :
    BitVec.getLsbD (if f = true then b.setWidth 16 ||| 0x0100 else (b.setWidth 16 : U16)) i = if i < 9 then bits9 b f i else false := by
  by_cases h9 : i < 9
  · rw [if_pos h9]
    unfold bits9
    have : i = 0 ∨ i = 1 ∨ i = 2 ∨ i = 3 ∨ i = 4 ∨ i = 5 ∨ i = 6 ∨ i = 7 ∨ i = 8 := by omega
    cases f <;> rcases this with rfl | rfl | rfl | rfl | rfl | rfl | rfl | rfl | rfl <;> simp
  · rw [if_neg h9]
    have hb : b.getLsbD i = false := BitVec.getLsbD_of_ge _ _ (by omega)
    cases f
    · simp [hb]
    · have : (0x100 : U16).getLsbD i = false := by
        by_cases h16 : i < 16
        · have : i = 9 ∨ i = 10 ∨ i = 11 ∨ i = 12 ∨ i = 13 ∨ i = 14 ∨ i = 15 := by omega
          rcases this with rfl | rfl | rfl | rfl | rfl | rfl | rfl <;> decide
        · exact BitVec.getLsbD_of_ge _ _ (by omega)
      simp [hb]
      simpa using this

theorem selected9 (mb fb : U8) (mf ff : Bool) (value : U16) :
    ¬ ((if mf = true then mb.setWidth 16 ||| 0x0100 else (mb.setWidth 16 : U16)) ≠ 0 ∧
      (if ff = true then fb.setWidth 16 ||| 0x0100 else (fb.setWidth 16 : U16)) ≠
        (if mf = true then mb.setWidth 16 ||| 0x0100 else (mb.setWidth 16 : U16)) &&& value) ↔
    Selected 9 (bits9 mb mf) (bits9 fb ff) value.getLsbD := by
  unfold Selected
  have h1 := word9_bit mb mf
  have h2 := word9_bit fb ff
  generalize (if mf = true then mb.setWidth 16 ||| 0x0100 else (mb.setWidth 16 : U16)) = a at *
  generalize (if ff = true then fb.setWidth 16 ||| 0x0100 else (fb.setWidth 16 : U16)) = b at *
  rw [Classical.not_and_iff_not_or_not, Classical.not_not, Classical.not_not]
  refine or_congr ⟨fun h i hi => ?_, fun h => BitVec.eq_of_getLsbD_eq fun i _ => ?_⟩
    ⟨fun h i hi => ?_, fun h => BitVec.eq_of_getLsbD_eq fun i _ => ?_⟩
  · have := h1 i; rw [if_pos hi, h] at this; rw [← this]; simp
  · rw [h1 i]
    split
    · rename_i hi; rw [h i hi]; simp
    · simp
  · have e1 := h1 i; have e2 := h2 i
    rw [if_pos hi] at e1 e2
    rw [← e1, ← e2, h, BitVec.getLsbD_and]
  · rw [BitVec.getLsbD_and, h1 i, h2 i]
    split
    · rename_i hi; exact h i hi
    · simp

/-- The bytes the code takes the zones from. -/
theorem zoneByte_iff (m : Msg) (k : Nat) (hk : k ≤ 1) (z : U8) : ZoneByte m m.data.toList k z ↔
    (Util.getZoneIndex m.cls m.typ).toNat < L1_DATA_SIZE ∧ m.data.toList.getD ((Util.getZoneIndex m.cls m.typ).toNat + k) 0 = z := by
  have hget : ∀ i, i < 8 → m.data.toList[i]? = some (m.data.toList.getD i 0) := by
    intro i hi
    rw [List.getD_eq_getElem?_getD, List.getElem?_eq_getElem (by simpa using hi)]
    rfl
  rw [Util.C08_zone_index]
  unfold ZoneByte
  by_cases h0 : ZoneInByte0 m.cls.toNat m.typ.toNat
  · have h1 : ¬ ZoneInByte1 m.cls.toNat m.typ.toNat := by
      unfold ZoneInByte0 at h0; unfold ZoneInByte1; simp [zoneClasses]; omega
    rw [if_pos h0, hget k (by omega)]
    simp [h0, h1, L1_DATA_SIZE]
  · by_cases h1 : ZoneInByte1 m.cls.toNat m.typ.toNat
    · rw [if_neg h0, if_pos h1, hget (k + 1) (by omega), Nat.add_comm k 1]
      simp [h0, h1, L1_DATA_SIZE]
    · rw [if_neg h0, if_neg h1]
      simp [h0, h1, L1_DATA_SIZE]

theorem inZone_iff (m : Msg) (k : Nat) (hk : k ≤ 1) (z : U8) : InZone m m.data.toList k z ↔
    (Util.getZoneIndex m.cls m.typ).toNat < L1_DATA_SIZE ∧
      (m.data.toList.getD ((Util.getZoneIndex m.cls m.typ).toNat + k) 0 = 0xFF ∨
       m.data.toList.getD ((Util.getZoneIndex m.cls m.typ).toNat + k) 0 = z) := by
  unfold InZone
  simp only [zoneByte_iff m k hk]
  constructor
  · rintro ⟨x, ⟨h, rfl⟩, h'⟩; exact ⟨h, h'⟩
  · rintro ⟨h, h'⟩; exact ⟨_, ⟨h, rfl⟩, h'⟩

/-- The bytes of a row as a structure. -/
def rowAt (f : Nat → U8) : Dm.Row := ⟨f 0, f 1, f 2, f 3, f 4, f 5, f 6, f 7⟩
/-- The bytes of an extension row as a structure. -/
def extAt (f : Nat → U8) : Dm.ExtRow := ⟨f 0, f 1, f 2, f 3, f 4, f 5, f 6, f 7⟩

theorem zoneCheck_iff (c : Cfg) (z s : U8) (row ext : Nat → U8) (m : Msg) :
    Dm.zoneCheck c z s (rowAt row) (extAt ext) m = true ↔
      ((row 1).getLsbD 4 = true → InZone m m.data.toList 0 (if extended c.dmExt row then ext 0 else z)) ∧
      ((row 1).getLsbD 3 = true → InZone m m.data.toList 1 (if extended c.dmExt row then ext 1 else s)) := by
  unfold Dm.zoneCheck
  simp only [rowAt, extAt, flag_iff _ 4 0x10 (by decide) (by decide), flag_iff _ 3 0x08 (by decide) (by decide),
    inZone_iff m _ (Nat.zero_le 1), inZone_iff m _ (Nat.le_refl 1), Nat.add_zero, extended]
  generalize (Util.getZoneIndex m.cls m.typ).toNat = zi
  generalize m.data.toList.getD zi 0 = a
  generalize m.data.toList.getD (zi + 1) 0 = b
  cases h4 : (row 1).getLsbD 4 <;> cases h3 : (row 1).getLsbD 3 <;> simp
  all_goals grind

theorem parCheck_iff (f : Bool) (i : Nat) (hi : i < 8) (p : U8) (m : Msg) :
    Dm.parCheck f i p m = true ↔ (f = true → (payload m)[i]? = some p) := by
  unfold Dm.parCheck payload
  cases f
  · simp
  · simp only [if_true, true_implies]
    split
    · rw [List.getElem?_take_eq_none (by omega)]; simp
    · rw [List.getElem?_take_of_lt (by omega), List.getD_eq_getElem?_getD, List.getElem?_eq_getElem (by simpa using hi)]
      simp only [Option.getD_some, beq_iff_eq, Option.some.injEq]
      exact eq_comm

set_option maxHeartbeats 1000000 in
/-- A row which is enabled fires iff the code finds an action. -/
theorem rowAction_eq (c : Cfg) (z s : U8) (row ext : Nat → U8) (m : Msg) (he : (row 1).getLsbD 7 = true) :
    Dm.rowAction c z s (rowAt row) (extAt ext) m =
      open Classical in
      if Fires c.dmExt z s row ext m m.data.toList then
        some (if extended c.dmExt row then (ext 6, ext 7) else (row 6, row 7)) else none := by
  unfold Dm.rowAction
  have hp : ∀ (k : Nat) (hk : k < 8) (x : U8), x = 1#8 <<< k → ((row 7 &&& x != 0) = (row 7).getLsbD k) := by
    intro k hk x hx
    have := flag_iff (row 7) k x hx hk
    cases h : (row 7).getLsbD k <;> simp_all
  have h0 := parCheck_iff (row 7 &&& 0x01 != 0) 0 (by decide) (ext 2) m
  have h3 := parCheck_iff (row 7 &&& 0x02 != 0) 3 (by decide) (ext 3) m
  have h4 := parCheck_iff (row 7 &&& 0x04 != 0) 4 (by decide) (ext 4) m
  have h5 := parCheck_iff (row 7 &&& 0x08 != 0) 5 (by decide) (ext 5) m
  rw [hp 0 (by decide) _ (by decide)] at h0
  rw [hp 1 (by decide) _ (by decide)] at h3
  rw [hp 2 (by decide) _ (by decide)] at h4
  rw [hp 3 (by decide) _ (by decide)] at h5
  have hz := zoneCheck_iff c z s row ext m
  have hc := selected9 (row 2) (row 3) ((row 1).getLsbD 1) ((row 1).getLsbD 0) m.cls
  have ht := selected8 (row 4) (row 5) m.typ
  simp only [rowAt, extAt, hp 0 (by decide) 1 (by decide), hp 1 (by decide) 2 (by decide), hp 2 (by decide) 4 (by decide),
    hp 3 (by decide) 8 (by decide), flag_iff _ 6 0x40 (by decide) (by decide), flag_iff _ 5 0x20 (by decide) (by decide),
    flag_iff _ 1 0x02 (by decide) (by decide), flag_iff _ 0 0x01 (by decide) (by decide)] at *
  split
  · rename_i h; rw [if_neg]; exact fun hf => hf.action h
  rename_i ha
  split
  · rename_i h; rw [if_neg]; exact fun hf => h.2 (hf.origin h.1).symm
  rename_i ho
  split
  · rename_i h; rw [if_neg]; intro hf; have := hf.hard h.1; rw [h.2] at this; cases this
  rename_i hh
  split
  · rename_i h; rw [if_neg]; intro hf
    rw [hz.mpr ⟨hf.zone, hf.subZone⟩] at h; cases h
  rename_i hzc
  have hzc := hz.mp (by simpa using hzc)
  by_cases hcc : Selected 9 (bits9 (row 2) ((row 1).getLsbD 1)) (bits9 (row 3) ((row 1).getLsbD 0)) m.cls.getLsbD
  case neg => rw [if_pos (Classical.not_not.mp (mt hc.mp hcc)), if_neg]; exact fun hf => hcc hf.cls
  rw [if_neg (hc.mpr hcc)]
  by_cases htc : Selected 8 (row 4).getLsbD (row 5).getLsbD m.typ.getLsbD
  case neg => rw [if_pos (Classical.not_not.mp (mt ht.mp htc)), if_neg]; exact fun hf => htc hf.typ
  rw [if_neg (ht.mpr htc)]
  have ho' : (row 1).getLsbD 6 = true → m.oAddr = row 0 := fun h => Classical.byContradiction fun h' => ho ⟨h, fun e => h' e.symm⟩
  have hh' : (row 1).getLsbD 5 = true → m.hard = true := fun h => by
    cases h' : m.hard
    · exact absurd ⟨h, h'⟩ hh
    · rfl
  split
  · rename_i hx
    split
    · rename_i h; rw [if_neg]; intro hf; rw [h0.mpr (hf.par0 hx)] at h; cases h
    rename_i p0
    split
    · rename_i h; rw [if_neg]; intro hf; rw [h3.mpr (hf.par3 hx)] at h; cases h
    rename_i p3
    split
    · rename_i h; rw [if_neg]; intro hf; rw [h4.mpr (hf.par4 hx)] at h; cases h
    rename_i p4
    split
    · rename_i h; rw [if_neg]; intro hf; rw [h5.mpr (hf.par5 hx)] at h; cases h
    rename_i p5
    rw [if_pos]
    exact ⟨he, ha, ho', hh', hzc.1, hzc.2, hcc, htc, fun _ => h0.mp (by simpa using p0), fun _ => h3.mp (by simpa using p3),
      fun _ => h4.mp (by simpa using p4), fun _ => h5.mp (by simpa using p5)⟩
  · rename_i hx
    rw [if_pos]
    exact ⟨he, ha, ho', hh', hzc.1, hzc.2, hcc, htc, fun h => absurd h hx, fun h => absurd h hx, fun h => absurd h hx,
      fun h => absurd h hx⟩

theorem getZone_run (c : Cfg) (w : W) : DevData.getZone c w = ((if c.zonePs then w.ps (Ps.addrZone c) else c.zone), w) := by
  unfold DevData.getZone Ps.readZone
  split <;> rfl

theorem getSubZone_run (c : Cfg) (w : W) :
    DevData.getSubZone c w = ((if c.subZonePs then w.ps (Ps.addrSubZone c) else c.subZone), w) := by
  unfold DevData.getSubZone Ps.readSubZone
  split <;> rfl

/-- The calls for one row. -/
noncomputable def rowCalls (x : Matrix) (m : Msg) (data : List U8) (i : Nat) : Option Out :=
  open Classical in
  if Fires x.ext x.zone x.subZone (x.row i) (x.extRow i) m data then some (call x.ext (x.row i) (x.extRow i) m) else none

theorem execRow_run (c : Cfg) (m : Msg) (i : Nat) (w : W) (hdm : c.dm = true) (hi : i < c.dmRows) :
    Dm.execRow c m i w = ((), { w with out := w.out ++ (rowCalls (matrix c w.ps) m m.data.toList i).toList }) := by
  have hs : Ps.sizeDm c = c.dmRows * 8 := by unfold Ps.sizeDm; rw [if_pos hdm]
  have hen : Dm.isRowEnabled c i w = (((matrix c w.ps).row i 1).getLsbD 7, w) := by
    unfold Dm.isRowEnabled Ps.readDm Ps.readIdx
    rw [if_pos (by omega)]
    simp only [bind_run, psRead8_run, pure_run]
    have := flag_iff ((matrix c w.ps).row i 1) 7 0x80 (by decide) (by decide)
    have e : w.ps (Ps.addrDm c + (i * 8 + 1)) = (matrix c w.ps).row i 1 := rfl
    rw [e]
    generalize (matrix c w.ps).row i 1 = b at *
    congr 1
    cases h : b.getLsbD 7 <;> simp_all
  have hrow : Dm.readRow c i w = (rowAt ((matrix c w.ps).row i), w) := by
    unfold Dm.readRow Ps.readDmMultiple
    rw [if_pos (by omega)]
    rfl
  have hext : c.dmExt = true → Dm.readExtRow c i w = (extAt ((matrix c w.ps).extRow i), w) := by
    intro he
    have hs : Ps.sizeDmExt c = c.dmRows * 8 := by unfold Ps.sizeDmExt; rw [if_pos he]
    unfold Dm.readExtRow Ps.readDmExtMultiple
    rw [if_pos (by omega)]
    rfl
  unfold Dm.execRow
  rw [bind_run, hen]
  simp only
  by_cases he : ((matrix c w.ps).row i 1).getLsbD 7 = true
  · rw [if_pos he, bind_run, hrow, bind_run]
    have hx : ∃ x, (if c.dmExt = true then Dm.readExtRow c i else pure (Dm.extRowOfBytes [])) w = (extAt x, w) ∧
        (c.dmExt = true → x = (matrix c w.ps).extRow i) := by
      by_cases hc : c.dmExt = true
      · rw [if_pos hc, hext hc]; exact ⟨_, rfl, fun _ => rfl⟩
      · rw [if_neg hc]; exact ⟨fun _ => 0, rfl, fun h => absurd h hc⟩
    obtain ⟨x, hx, hxe⟩ := hx
    rw [hx]
    have hub : ∀ (r : Dm.Row) (w : W), whenM (Dm.zoneOutside r m) markUb w = ((), w) := by
      intro r w
      rw [whenM_run, if_neg]
      exact fun h => absurd (Util.zoneIndex_next _ _ h.2.1) h.2.2
    simp only [bind_run, getZone_run, getSubZone_run, hub]
    rw [rowAction_eq _ _ _ _ _ _ he]
    have hf : Fires c.dmExt (if c.zonePs then w.ps (Ps.addrZone c) else c.zone)
          (if c.subZonePs then w.ps (Ps.addrSubZone c) else c.subZone) ((matrix c w.ps).row i) x m m.data.toList ↔
        Fires (matrix c w.ps).ext (matrix c w.ps).zone (matrix c w.ps).subZone ((matrix c w.ps).row i) ((matrix c w.ps).extRow i) m m.data.toList := by
      by_cases hc : c.dmExt = true
      · rw [hxe hc]; rfl
      · have hno : ¬ extended c.dmExt ((matrix c w.ps).row i) := fun h => hc h.1
        have hno' : ¬ extended (matrix c w.ps).ext ((matrix c w.ps).row i) := fun h => hc h.1
        constructor
        · intro h
          have hz := h.zone; have hsz := h.subZone
          rw [if_neg hno] at hz hsz
          exact ⟨h.1, h.2, h.3, h.4, by rw [if_neg hno']; exact hz, by rw [if_neg hno']; exact hsz, h.7, h.8, fun h => absurd h hno',
            fun h => absurd h hno', fun h => absurd h hno', fun h => absurd h hno'⟩
        · intro h
          have hz := h.zone; have hsz := h.subZone
          rw [if_neg hno'] at hz hsz
          exact ⟨h.1, h.2, h.3, h.4, by rw [if_neg hno]; exact hz, by rw [if_neg hno]; exact hsz, h.7, h.8, fun h => absurd h hno,
            fun h => absurd h hno, fun h => absurd h hno, fun h => absurd h hno⟩
    unfold rowCalls
    by_cases h : Fires (matrix c w.ps).ext (matrix c w.ps).zone (matrix c w.ps).subZone ((matrix c w.ps).row i) ((matrix c w.ps).extRow i) m m.data.toList
    · rw [if_pos h, if_pos (hf.mpr h)]
      unfold call
      by_cases hc : extended c.dmExt ((matrix c w.ps).row i)
      · rw [if_pos hc, if_pos (show extended (matrix c w.ps).ext ((matrix c w.ps).row i) from hc), ← hxe hc.1]
        rfl
      · rw [if_neg hc, if_neg (show ¬ extended (matrix c w.ps).ext ((matrix c w.ps).row i) from hc)]
        rfl
    · rw [if_neg h, if_neg (fun hh => h (hf.mp hh))]
      simp
  · rw [if_neg he]
    unfold rowCalls
    rw [if_neg (fun h => he h.enabled)]
    simp

theorem execRows_run (c : Cfg) (m : Msg) (w : W) (hdm : c.dm = true) (n : Nat) (hn : n ≤ c.dmRows) :
    forUp (Dm.execRow c m) n w =
      ((), { w with out := w.out ++ (List.range n).filterMap (rowCalls (matrix c w.ps) m m.data.toList) }) := by
  induction n with
  | zero => simp [forUp]
  | succ n ih =>
    have : forUp (Dm.execRow c m) (n + 1) = (do forUp (Dm.execRow c m) n; Dm.execRow c m n) := rfl
    rw [this, bind_run, ih (by omega), execRow_run _ _ _ _ hdm (by omega)]
    simp only [List.range_succ, List.filterMap_append, List.append_assoc]
    congr 4

/-- The loop over the rows. -/
theorem executeActions_run (c : Cfg) (m : Msg) (w : W) (hdm : c.dm = true) (hn : c.dmRows ≤ 255) :
    Dm.executeActions c m w = ((), { w with out := w.out ++ calls (matrix c w.ps) m m.data.toList }) := by
  unfold Dm.executeActions
  rw [if_pos hn, execRows_run c m w hdm _ (Nat.le_refl _)]
  rfl

end Vscp.DmProps
