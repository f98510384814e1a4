/-
The contents of the persistent memory after a factory restore.
-/
import Verif.Lemmas.Writes

namespace Vscp
open M

/-- All writes are at `b` or above. -/
def From (b : Nat) (l : List (Nat × U8)) : Prop := ∀ x ∈ l, b ≤ x.1

theorem From.mono {a b l} (h : From b l) (hab : a ≤ b) : From a l := fun x hx => Nat.le_trans hab (h x hx)
theorem From.nil {b} : From b [] := fun x hx => by simp at hx
theorem From.append {b l l'} (h : From b l) (h' : From b l') : From b (l ++ l') := fun x hx => by
  rcases List.mem_append.mp hx with hx | hx
  · exact h x hx
  · exact h' x hx
theorem From.ite {p : Prop} [Decidable p] {b l} (h : From b l) : From b (if p then l else []) := by
  split
  · exact h
  · exact From.nil
theorem From.flatMap {b n} {g : Nat → List (Nat × U8)} (h : ∀ i, From b (g i)) : From b ((List.range n).flatMap g) := by
  intro x hx
  obtain ⟨i, -, hi⟩ := List.mem_flatMap.mp hx
  exact h i x hi
theorem From.idxW {b a s i v} (h : b ≤ a) : From b (idxW a s i v) := fun _ hx =>
  Nat.le_trans h (mem_idxW hx).1
theorem From.bytesAt {b a l} (h : b ≤ a) : From b (bytesAt a l) := fun _ hx =>
  Nat.le_trans h (mem_bytesAt hx).1
theorem From.single {b a v} (h : b ≤ a) : From b [(a, v)] := fun x hx => by
  simp at hx; subst hx; exact h

theorem applyWrites_from {ps l l' a b} (h : From b l') (ha : a < b) :
    applyWrites ps (l ++ l') a = applyWrites ps l a := by
  rw [applyWrites_append]
  exact applyWrites_other (fun x hx => by have := h x hx; omega)

theorem applyWrites_range {g : Nat → List (Nat × U8)} {n k a v} (hk : k < n)
    (h1 : ∀ ps, applyWrites ps (g k) a = v) (h2 : ∀ j, k < j → j < n → ∀ x ∈ g j, x.1 ≠ a) (ps : Nat → U8) :
    applyWrites ps ((List.range n).flatMap g) a = v := by
  induction n with
  | zero => omega
  | succ n ih =>
    rw [List.range_succ, List.flatMap_append, applyWrites_append]
    simp only [List.flatMap_cons, List.flatMap_nil, List.append_nil]
    by_cases hkn : k = n
    · subst hkn; exact h1 _
    · rw [applyWrites_other (h2 n (by omega) (by omega))]
      exact ih (by omega) (fun j hj hjn => h2 j hj (by omega))

/-- A block of indexed writes, in any order of the indices. -/
theorem applyWrites_idx {a s n : Nat} {σ : Nat → Nat} {f : Nat → U8} {k : Nat} (hk : k < n) (hs : σ k < s)
    (hinj : ∀ j, k < j → j < n → σ j ≠ σ k) (ps : Nat → U8) :
    applyWrites ps ((List.range n).flatMap fun i => idxW a s (σ i) (f i)) (a + σ k) = f k := by
  refine applyWrites_range hk ?_ ?_ ps
  · intro ps; rw [idxW, if_pos hs]; simp [applyWrites]
  · intro j hj hjn x hx
    have := (mem_idxW hx).2.2
    rw [this]; simp only
    have := hinj j hj hjn
    omega

namespace Restore
open Ps

theorem layout_mono (c : Cfg) : addrGuid c ≤ addrZone c ∧ addrZone c ≤ addrSubZone c ∧ addrSubZone c ≤ addrManu c ∧
    addrManu c ≤ addrManuSub c ∧ addrManuSub c ≤ addrMdf c ∧ addrMdf c ≤ addrFam c ∧ addrFam c ≤ addrType c ∧
    addrType c ≤ addrLogId c ∧ addrLogId c ≤ addrDm c ∧ addrDm c ≤ addrDmExt c ∧ addrDmExt c ≤ addrDmNg c := by
  refine ⟨?_, ?_, ?_, ?_, ?_, ?_, ?_, ?_, ?_, ?_, ?_⟩ <;> exact Nat.le_add_right _ _

theorem layout_low (c : Cfg) : addrNickname c < addrSegCrc c ∧ addrSegCrc c < addrFlags c ∧ addrFlags c < addrUserId c ∧
    addrUserId c + 5 = addrGuid c := by
  refine ⟨?_, ?_, ?_, rfl⟩ <;> exact Nat.lt_succ_self _

theorem from_ng (c : Cfg) : From (addrDmNg c) (ng c) := From.flatMap fun _ => From.idxW (Nat.le_refl _)

theorem from_dm (c : Cfg) : From (addrDm c) (dm c) := by
  have := layout_mono c
  refine From.flatMap fun i => From.append (From.ite (From.bytesAt (by omega)))
    (From.ite (From.ite (From.bytesAt (by omega))))

/-- The matrices. -/
def mats (c : Cfg) : List (Nat × U8) := (if c.dm then dm c else []) ++ (if c.dmNg then ng c else [])

theorem from_mats (c : Cfg) : From (addrDm c) (mats c) := by
  have := layout_mono c
  exact From.append (From.ite (from_dm c)) (From.ite ((from_ng c).mono (by omega)))

/-- The device data behind the GUID, the zone, ... and everything behind. -/
def t8 (c : Cfg) : List (Nat × U8) :=
  (if c.familyEn ∧ c.typePs then (List.range 4).flatMap fun i =>
    idxW (Ps.addrType c) (Ps.sizeType c) i (DevData.shiftByte c.devType i) else []) ++ mats c
def t7 (c : Cfg) : List (Nat × U8) :=
  (if c.familyEn ∧ c.famPs then (List.range 4).flatMap fun i =>
    idxW (Ps.addrFam c) (Ps.sizeFam c) i (DevData.shiftByte c.famCode i) else []) ++ t8 c
def t6 (c : Cfg) : List (Nat × U8) :=
  (if c.mdfPs then (List.range 32).flatMap fun i =>
    idxW (Ps.addrMdf c) (Ps.sizeMdf c) i (c.mdfUrl.getD i 0) else []) ++ t7 c
def t5 (c : Cfg) : List (Nat × U8) :=
  (if c.manuSubPs then (List.range 4).flatMap fun i =>
    idxW (Ps.addrManuSub c) (Ps.sizeManuSub c) i (DevData.memByte c c.manuSub i) else []) ++ t6 c
def t4 (c : Cfg) : List (Nat × U8) :=
  (if c.manuPs then (List.range 4).flatMap fun i =>
    idxW (Ps.addrManu c) (Ps.sizeManu c) i (DevData.memByte c c.manu i) else []) ++ t5 c
def t3 (c : Cfg) : List (Nat × U8) := (if c.subZonePs then [(Ps.addrSubZone c, c.subZone)] else []) ++ t4 c
def t2 (c : Cfg) : List (Nat × U8) := (if c.zonePs then [(Ps.addrZone c, c.zone)] else []) ++ t3 c
def t1 (c : Cfg) : List (Nat × U8) :=
  (if c.guidPs then (List.range 16).flatMap fun i =>
    idxW (Ps.addrGuid c) (Ps.sizeGuid c) (16 - i - 1) (c.guid.toList.getD i 0) else []) ++ t2 c
def t0 (c : Cfg) : List (Nat × U8) :=
  ((List.range 5).flatMap fun i => idxW (Ps.addrUserId c) (Ps.sizeUserId c) i 0) ++ t1 c

theorem from_t8 (c : Cfg) : From (addrType c) (t8 c) := by
  have := layout_mono c
  exact From.append (From.ite (From.flatMap fun i => From.idxW (by omega))) ((from_mats c).mono (by omega))
theorem from_t7 (c : Cfg) : From (addrFam c) (t7 c) := by
  have := layout_mono c
  exact From.append (From.ite (From.flatMap fun i => From.idxW (by omega))) ((from_t8 c).mono (by omega))
theorem from_t6 (c : Cfg) : From (addrMdf c) (t6 c) := by
  have := layout_mono c
  exact From.append (From.ite (From.flatMap fun i => From.idxW (by omega))) ((from_t7 c).mono (by omega))
theorem from_t5 (c : Cfg) : From (addrManuSub c) (t5 c) := by
  have := layout_mono c
  exact From.append (From.ite (From.flatMap fun i => From.idxW (by omega))) ((from_t6 c).mono (by omega))
theorem from_t4 (c : Cfg) : From (addrManu c) (t4 c) := by
  have := layout_mono c
  exact From.append (From.ite (From.flatMap fun i => From.idxW (by omega))) ((from_t5 c).mono (by omega))
theorem from_t3 (c : Cfg) : From (addrSubZone c) (t3 c) := by
  have := layout_mono c
  exact From.append (From.ite (From.single (by omega))) ((from_t4 c).mono (by omega))
theorem from_t2 (c : Cfg) : From (addrZone c) (t2 c) := by
  have := layout_mono c
  exact From.append (From.ite (From.single (by omega))) ((from_t3 c).mono (by omega))
theorem from_t1 (c : Cfg) : From (addrGuid c) (t1 c) := by
  have := layout_mono c
  exact From.append (From.ite (From.flatMap fun i => From.idxW (by omega))) ((from_t2 c).mono (by omega))
theorem from_t0 (c : Cfg) : From (addrUserId c) (t0 c) := by
  have := layout_low c
  exact From.append (From.flatMap fun i => From.idxW (by omega)) ((from_t1 c).mono (by omega))

theorem rest_eq (c : Cfg) : rest c = t0 c := by
  simp only [rest, devData, t0, t1, t2, t3, t4, t5, t6, t7, t8, mats, List.append_assoc]

/-- Split of all writes in front of a part. -/
theorem all_split (c : Cfg) : ∃ p0 p1 p2 p3 p4 p5 p6 p7 p8 pm,
    all c = p0 ++ t0 c ∧ all c = p1 ++ t1 c ∧ all c = p2 ++ t2 c ∧ all c = p3 ++ t3 c ∧ all c = p4 ++ t4 c ∧
    all c = p5 ++ t5 c ∧ all c = p6 ++ t6 c ∧ all c = p7 ++ t7 c ∧ all c = p8 ++ t8 c ∧ all c = pm ++ mats c := by
  have h0 : ∃ p, all c = p ++ t0 c := by
    refine ⟨(addrNickname c, 0xFF) :: ((if c.hbSegment then [(addrSegCrc c, 0xFF)] else []) ++ [(addrFlags c, 0xA0)]), ?_⟩
    rw [all, rest_eq]; simp
  have step : ∀ {t u v : List (Nat × U8)}, (∃ p, all c = p ++ t) → t = u ++ v → ∃ p, all c = p ++ v := by
    rintro t u v ⟨p, hp⟩ ht
    exact ⟨p ++ u, by rw [hp, ht, List.append_assoc]⟩
  have h1 := step h0 (show t0 c = _ ++ t1 c from rfl)
  have h2 := step h1 (show t1 c = _ ++ t2 c from rfl)
  have h3 := step h2 (show t2 c = _ ++ t3 c from rfl)
  have h4 := step h3 (show t3 c = _ ++ t4 c from rfl)
  have h5 := step h4 (show t4 c = _ ++ t5 c from rfl)
  have h6 := step h5 (show t5 c = _ ++ t6 c from rfl)
  have h7 := step h6 (show t6 c = _ ++ t7 c from rfl)
  have h8 := step h7 (show t7 c = _ ++ t8 c from rfl)
  have hm := step h8 (show t8 c = _ ++ mats c from rfl)
  obtain ⟨p0, h0⟩ := h0
  obtain ⟨p1, h1⟩ := h1
  obtain ⟨p2, h2⟩ := h2
  obtain ⟨p3, h3⟩ := h3
  obtain ⟨p4, h4⟩ := h4
  obtain ⟨p5, h5⟩ := h5
  obtain ⟨p6, h6⟩ := h6
  obtain ⟨p7, h7⟩ := h7
  obtain ⟨p8, h8⟩ := h8
  obtain ⟨pm, hm⟩ := hm
  exact ⟨p0, p1, p2, p3, p4, p5, p6, p7, p8, pm, h0, h1, h2, h3, h4, h5, h6, h7, h8, hm⟩

theorem guid_at (c : Cfg) (h : c.guidPs = true) (ps : Nat → U8) (i : Nat) (hi : i < 16) :
    applyWrites ps (all c) (addrGuid c + i) = c.guid.toList.getD (15 - i) 0 := by
  obtain ⟨p0, p1, p2, p3, p4, p5, p6, p7, p8, pm, h0, h1, h2, h3, h4, h5, h6, h7, h8, hm⟩ := all_split c
  have hz : addrZone c = addrGuid c + 16 := by simp [addrZone, sizeGuid, h]
  rw [h1, t1, ← List.append_assoc, applyWrites_from (from_t2 c) (by omega), applyWrites_append, if_pos h]
  have := applyWrites_idx (a := addrGuid c) (s := sizeGuid c) (n := 16) (σ := fun i => 16 - i - 1)
    (f := fun i => c.guid.toList.getD i 0) (k := 15 - i) (by omega) (by simp [sizeGuid, h]; omega)
    (by intro j h1 h2; omega) (applyWrites ps p1)
  rw [show addrGuid c + (16 - (15 - i) - 1) = addrGuid c + i by omega] at this
  exact this

theorem zone_at (c : Cfg) (h : c.zonePs = true) (ps : Nat → U8) :
    applyWrites ps (all c) (addrZone c) = c.zone := by
  obtain ⟨p0, p1, p2, p3, p4, p5, p6, p7, p8, pm, h0, h1, h2, h3, h4, h5, h6, h7, h8, hm⟩ := all_split c
  have hz : addrSubZone c = addrZone c + 1 := by simp [addrSubZone, sizeZone, h]
  rw [h2, t2, ← List.append_assoc, applyWrites_from (from_t3 c) (by omega), applyWrites_append, if_pos h]
  simp [applyWrites]

theorem subZone_at (c : Cfg) (h : c.subZonePs = true) (ps : Nat → U8) :
    applyWrites ps (all c) (addrSubZone c) = c.subZone := by
  obtain ⟨p0, p1, p2, p3, p4, p5, p6, p7, p8, pm, h0, h1, h2, h3, h4, h5, h6, h7, h8, hm⟩ := all_split c
  have hz : addrManu c = addrSubZone c + 1 := by simp [addrManu, sizeSubZone, h]
  rw [h3, t3, ← List.append_assoc, applyWrites_from (from_t4 c) (by omega), applyWrites_append, if_pos h]
  simp [applyWrites]

theorem manu_at (c : Cfg) (h : c.manuPs = true) (ps : Nat → U8) (i : Nat) (hi : i < 4) :
    applyWrites ps (all c) (addrManu c + i) = DevData.memByte c c.manu i := by
  obtain ⟨p0, p1, p2, p3, p4, p5, p6, p7, p8, pm, h0, h1, h2, h3, h4, h5, h6, h7, h8, hm⟩ := all_split c
  have hz : addrManuSub c = addrManu c + 4 := by simp [addrManuSub, sizeManu, h]
  rw [h4, t4, ← List.append_assoc, applyWrites_from (from_t5 c) (by omega), applyWrites_append, if_pos h]
  exact applyWrites_idx (σ := fun i => i) hi (by simp [sizeManu, h]; omega) (by intro j _ _; omega) _

theorem manuSub_at (c : Cfg) (h : c.manuSubPs = true) (ps : Nat → U8) (i : Nat) (hi : i < 4) :
    applyWrites ps (all c) (addrManuSub c + i) = DevData.memByte c c.manuSub i := by
  obtain ⟨p0, p1, p2, p3, p4, p5, p6, p7, p8, pm, h0, h1, h2, h3, h4, h5, h6, h7, h8, hm⟩ := all_split c
  have hz : addrMdf c = addrManuSub c + 4 := by simp [addrMdf, sizeManuSub, h]
  rw [h5, t5, ← List.append_assoc, applyWrites_from (from_t6 c) (by omega), applyWrites_append, if_pos h]
  exact applyWrites_idx (σ := fun i => i) hi (by simp [sizeManuSub, h]; omega) (by intro j _ _; omega) _

theorem mdf_at (c : Cfg) (h : c.mdfPs = true) (ps : Nat → U8) (i : Nat) (hi : i < 32) :
    applyWrites ps (all c) (addrMdf c + i) = c.mdfUrl.getD i 0 := by
  obtain ⟨p0, p1, p2, p3, p4, p5, p6, p7, p8, pm, h0, h1, h2, h3, h4, h5, h6, h7, h8, hm⟩ := all_split c
  have hz : addrFam c = addrMdf c + 32 := by simp [addrFam, sizeMdf, h]
  rw [h6, t6, ← List.append_assoc, applyWrites_from (from_t7 c) (by omega), applyWrites_append, if_pos h]
  exact applyWrites_idx (σ := fun i => i) hi (by simp [sizeMdf, h]; omega) (by intro j _ _; omega) _

theorem fam_at (c : Cfg) (h : c.famPs = true) (he : c.familyEn = true) (ps : Nat → U8) (i : Nat) (hi : i < 4) :
    applyWrites ps (all c) (addrFam c + i) = DevData.shiftByte c.famCode i := by
  obtain ⟨p0, p1, p2, p3, p4, p5, p6, p7, p8, pm, h0, h1, h2, h3, h4, h5, h6, h7, h8, hm⟩ := all_split c
  have hz : addrType c = addrFam c + 4 := by simp [addrType, sizeFam, h]
  rw [h7, t7, ← List.append_assoc, applyWrites_from (from_t8 c) (by omega), applyWrites_append, if_pos ⟨he, h⟩]
  exact applyWrites_idx (σ := fun i => i) hi (by simp [sizeFam, h]; omega) (by intro j _ _; omega) _

theorem type_at (c : Cfg) (h : c.typePs = true) (he : c.familyEn = true) (ps : Nat → U8) (i : Nat) (hi : i < 4) :
    applyWrites ps (all c) (addrType c + i) = DevData.shiftByte c.devType i := by
  obtain ⟨p0, p1, p2, p3, p4, p5, p6, p7, p8, pm, h0, h1, h2, h3, h4, h5, h6, h7, h8, hm⟩ := all_split c
  have hz : addrLogId c = addrType c + 4 := by simp [addrLogId, sizeType, h]
  have := layout_mono c
  rw [h8, t8, ← List.append_assoc, applyWrites_from (from_mats c) (by omega), applyWrites_append, if_pos ⟨he, h⟩]
  exact applyWrites_idx (σ := fun i => i) hi (by simp [sizeType, h]; omega) (by intro j _ _; omega) _

theorem userId_at (c : Cfg) (ps : Nat → U8) (i : Nat) (hi : i < 5) :
    applyWrites ps (all c) (addrUserId c + i) = 0 := by
  obtain ⟨p0, p1, p2, p3, p4, p5, p6, p7, p8, pm, h0, h1, h2, h3, h4, h5, h6, h7, h8, hm⟩ := all_split c
  have := layout_low c
  rw [h0, t0, ← List.append_assoc, applyWrites_from (from_t1 c) (by omega), applyWrites_append]
  exact applyWrites_idx (σ := fun i => i) (f := fun _ => 0) hi (by simpa [sizeUserId] using hi)
    (by intro j _ _; omega) _

theorem flags_at (c : Cfg) (ps : Nat → U8) : applyWrites ps (all c) (addrFlags c) = 0xA0 := by
  have := layout_low c
  have h : all c = ((addrNickname c, 0xFF) :: (if c.hbSegment then [(addrSegCrc c, 0xFF)] else [])) ++
      (addrFlags c, 0xA0) :: rest c := by rw [all]; simp
  rw [h]
  apply applyWrites_last
  intro x hx
  rw [rest_eq] at hx
  have := from_t0 c x hx
  omega

theorem nick_at (c : Cfg) (ps : Nat → U8) : applyWrites ps (all c) (addrNickname c) = 0xFF := by
  have := layout_low c
  have h : all c = [] ++ (addrNickname c, 0xFF) :: ((if c.hbSegment then [(addrSegCrc c, 0xFF)] else []) ++
      ((addrFlags c, 0xA0) :: rest c)) := rfl
  rw [h]
  apply applyWrites_last
  intro x hx
  rw [rest_eq] at hx
  rcases List.mem_append.mp hx with hx | hx
  · split at hx <;> simp at hx; subst hx; simp; omega
  · rcases List.mem_cons.mp hx with rfl | hx
    · simp; omega
    · have := from_t0 c x hx; omega

theorem segCrc_at (c : Cfg) (ps : Nat → U8) :
    applyWrites ps (all c) (addrSegCrc c) = if c.hbSegment then 0xFF else ps (addrSegCrc c) := by
  have := layout_low c
  have hr : ∀ x ∈ (addrFlags c, 0xA0) :: rest c, x.1 ≠ addrSegCrc c := by
    intro x hx
    rw [rest_eq] at hx
    rcases List.mem_cons.mp hx with rfl | hx
    · simp; omega
    · have := from_t0 c x hx; omega
  by_cases h : c.hbSegment = true
  · have ha : all c = [(addrNickname c, 0xFF)] ++ (addrSegCrc c, 0xFF) :: ((addrFlags c, 0xA0) :: rest c) := by
      rw [all, if_pos h]; rfl
    rw [ha, applyWrites_last hr, if_pos h]
  · have ha : all c = [(addrNickname c, 0xFF)] ++ ((addrFlags c, 0xA0) :: rest c) := by
      rw [all, if_neg h]; rfl
    rw [ha, applyWrites_append, applyWrites_other hr, if_neg h]
    simp [applyWrites]; omega

end Restore
end Vscp
