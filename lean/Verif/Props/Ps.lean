/-
Properties C12, C13: persistent storage.
-/
import Verif.Lemmas.Writes
import Verif.Spec.Ps
import Verif.Example.Ctx

namespace Vscp.Ps
open Vscp.Spec M

/-- The published address of a field. -/
def addrOf (c : Cfg) : Field → Nat
  | .bootFlag => addrBootFlag c
  | .nickname => addrNickname c
  | .segmentCrc => addrSegCrc c
  | .controlFlags => addrFlags c
  | .userId => addrUserId c
  | .guid => addrGuid c
  | .zone => addrZone c
  | .subZone => addrSubZone c
  | .manufacturerId => addrManu c
  | .manufacturerSubId => addrManuSub c
  | .mdfUrl => addrMdf c
  | .familyCode => addrFam c
  | .deviceType => addrType c
  | .logId => addrLogId c
  | .matrix => addrDm c
  | .matrixExtension => addrDmExt c
  | .matrixNextGeneration => addrDmNg c

/-- The read function of a field. -/
def readField (c : Cfg) : Field → Nat → M U8
  | .bootFlag, _ => readBootFlag c
  | .nickname, _ => readNickname c
  | .segmentCrc, _ => readSegCrc c
  | .controlFlags, _ => readFlags c
  | .userId, i => readUserId c i
  | .guid, i => readGuid c i
  | .zone, _ => readZone c
  | .subZone, _ => readSubZone c
  | .manufacturerId, i => readManu c i
  | .manufacturerSubId, i => readManuSub c i
  | .mdfUrl, i => readMdf c i
  | .familyCode, i => readFam c i
  | .deviceType, i => readType c i
  | .logId, _ => readLogId c
  | .matrix, i => readDm c i
  | .matrixExtension, i => readDmExt c i
  | .matrixNextGeneration, i => readDmNg c i

/-- The write function of a field. -/
def writeField (c : Cfg) : Field → Nat → U8 → M Unit
  | .bootFlag, _, v => writeBootFlag c v
  | .nickname, _, v => writeNickname c v
  | .segmentCrc, _, v => writeSegCrc c v
  | .controlFlags, _, v => writeFlags c v
  | .userId, i, v => writeUserId c i v
  | .guid, i, v => writeGuid c i v
  | .zone, _, v => writeZone c v
  | .subZone, _, v => writeSubZone c v
  | .manufacturerId, i, v => writeManu c i v
  | .manufacturerSubId, i, v => writeManuSub c i v
  | .mdfUrl, i, v => writeMdf c i v
  | .familyCode, i, v => writeFam c i v
  | .deviceType, i, v => writeType c i v
  | .logId, _, v => writeLogId c v
  | .matrix, i, v => writeDm c i v
  | .matrixExtension, i, v => writeDmExt c i v
  | .matrixNextGeneration, i, v => writeDmNg c i v

/-! ### C12 -/

/-- C12: in every configuration each field starts where the fields before it end, and the published next free address
is the end of the last field. -/
theorem C12_packed (c : Cfg) :
    (∀ f, addrOf c f = ((before f).map (fieldSize c)).sum) ∧ addrNext c = (fields.map (fieldSize c)).sum := by
  constructor
  · intro f
    cases f <;> simp [before, fields, fieldSize, present, addrOf, addrBootFlag, addrNickname, addrSegCrc, addrFlags,
      addrUserId, addrGuid, addrZone, addrSubZone, addrManu, addrManuSub, addrMdf, addrFam, addrType, addrLogId, addrDm,
      addrDmExt, addrDmNg, sizeBootFlag, sizeNickname, sizeSegCrc, sizeFlags, sizeUserId, sizeGuid, sizeZone, sizeSubZone,
      sizeManu, sizeManuSub, sizeMdf, sizeFam, sizeType, sizeLogId, sizeDm, sizeDmExt] <;> omega
  · simp [fields, fieldSize, present, addrNext, addrBootFlag, addrNickname, addrSegCrc, addrFlags,
      addrUserId, addrGuid, addrZone, addrSubZone, addrManu, addrManuSub, addrMdf, addrFam, addrType, addrLogId, addrDm,
      addrDmExt, addrDmNg, sizeBootFlag, sizeNickname, sizeSegCrc, sizeFlags, sizeUserId, sizeGuid, sizeZone, sizeSubZone,
      sizeManu, sizeManuSub, sizeMdf, sizeFam, sizeType, sizeLogId, sizeDm, sizeDmExt, sizeDmNg]
    omega

/-- `a` is an address of field `f`. -/
def Owns (c : Cfg) (f : Field) (a : Nat) : Prop := addrOf c f ≤ a ∧ a < addrOf c f + fieldSize c f

instance (c : Cfg) (f : Field) (a : Nat) : Decidable (Owns c f a) := by unfold Owns; infer_instance

theorem mem_fields (f : Field) : f ∈ fields := by cases f <;> decide

theorem before_prefix (f g : Field) (h : f ≠ g) :
    (before f ++ [f]).isPrefixOf (before g) = true ∨ (before g ++ [g]).isPrefixOf (before f) = true := by
  have : ∀ f ∈ fields, ∀ g ∈ fields, f ≠ g →
    (before f ++ [f]).isPrefixOf (before g) = true ∨ (before g ++ [g]).isPrefixOf (before f) = true := by decide
  exact this f (mem_fields f) g (mem_fields g) h

/-- A field ends before every later field starts. -/
theorem addr_le (c : Cfg) (f g : Field) (h : (before f ++ [f]).isPrefixOf (before g) = true) :
    addrOf c f + fieldSize c f ≤ addrOf c g := by
  obtain ⟨t, ht⟩ := List.isPrefixOf_iff_prefix.mp h
  rw [(C12_packed c).1 f, (C12_packed c).1 g, ← ht]
  simp

theorem cover (s : Field → Nat) (L : List Field) : ∀ base a, base ≤ a → a < base + (L.map s).sum →
    ∃ pre f post, L = pre ++ f :: post ∧ base + (pre.map s).sum ≤ a ∧ a < base + (pre.map s).sum + s f := by
  induction L with
  | nil => intro base a h1 h2; simp at h2; omega
  | cons x L ih =>
    intro base a h1 h2
    simp only [List.map_cons, List.sum_cons] at h2
    by_cases h : a < base + s x
    · exact ⟨[], x, L, rfl, by simpa using h1, by simpa using h⟩
    · obtain ⟨pre, f, post, he, h3, h4⟩ := ih (base + s x) a (by omega) (by omega)
      refine ⟨x :: pre, f, post, by rw [he]; rfl, ?_, ?_⟩ <;> simp only [List.map_cons, List.sum_cons] <;> omega

theorem before_eq {pre post : List Field} {f : Field} (h : fields = pre ++ f :: post) : before f = pre := by
  have hn : fields.Nodup := by decide
  rw [h, List.nodup_append] at hn
  have hf : ∀ x ∈ pre, x ≠ f := fun x hx => hn.2.2 x hx f (List.mem_cons_self ..)
  rw [before, h, List.takeWhile_append_of_pos (by simpa using hf)]
  simp

/-- C12: every address below the next free address belongs to exactly one field, no other address belongs
to any. -/
theorem C12_partition (c : Cfg) (a : Nat) :
    (a < addrNext c ↔ ∃ f, Owns c f a) ∧ ∀ f g, Owns c f a → Owns c g a → f = g := by
  refine ⟨⟨?_, ?_⟩, ?_⟩
  · intro ha
    rw [(C12_packed c).2] at ha
    obtain ⟨pre, f, post, he, h1, h2⟩ := cover (fieldSize c) fields 0 a (by omega) (by omega)
    refine ⟨f, ?_⟩
    unfold Owns
    rw [(C12_packed c).1 f, before_eq he]
    omega
  · rintro ⟨f, h1, h2⟩
    have hn : addrOf c f + fieldSize c f ≤ addrNext c := by
      obtain ⟨pre, post, he⟩ := List.append_of_mem (mem_fields f)
      rw [(C12_packed c).1 f, (C12_packed c).2, before_eq he, he]
      simp
    omega
  · intro f g hf hg
    apply Classical.byContradiction
    intro hne
    unfold Owns at hf hg
    rcases before_prefix f g hne with h | h
    · have := addr_le c f g h; omega
    · have := addr_le c g f h; omega

/-- Size of the example configuration: 1 + 1 + 1 + 1 + 5 + 16 + 1 + 1 + 4 + 32 + 4 + 4 + 1 + 80 + 80. -/
example : addrNext Ex.ctx = 232 ∧ Owns Ex.ctx .matrix 100 := by decide

/-! ### C13 -/

theorem read_eq (c : Cfg) (f : Field) (i : Nat) (hi : i < fieldSize c f) (w : W) :
    readField c f i w = (w.ps (addrOf c f + i), w) := by
  have key : ∀ a s, i < s → readIdx a s i w = (w.ps (a + i), w) := by
    intro a s h; rw [readIdx, if_pos h]; rfl
  cases f <;> first
    | exact key _ _ hi
    | (have : i = 0 := by simp only [fieldSize, present] at hi; split at hi <;> omega
       subst this; rfl)
    | (have : i = 0 := by simp only [fieldSize] at hi; omega
       subst this; rfl)

theorem write_eq (c : Cfg) (f : Field) (i : Nat) (v : U8) (hi : i < fieldSize c f) (w : W) :
    writeField c f i v w = ((), { w with
      ps := fun x => if x = addrOf c f + i then v else w.ps x, out := w.out ++ [.psW (addrOf c f + i) v] }) := by
  have key : ∀ a s, i < s → writeIdx a s i v w = ((), { w with
      ps := fun x => if x = a + i then v else w.ps x, out := w.out ++ [.psW (a + i) v] }) := by
    intro a s h; rw [writeIdx, if_pos h]; rfl
  cases f <;> first
    | exact key _ _ hi
    | (have : i = 0 := by simp only [fieldSize, present] at hi; split at hi <;> omega
       subst this; rfl)
    | (have : i = 0 := by simp only [fieldSize] at hi; omega
       subst this; rfl)

/-- C13: for every configuration, memory content, field, index and value: after a write, the written byte reads as written,
and every other byte of every field reads as before. -/
theorem C13_read_after_write (c : Cfg) (w : W) (f g : Field) (i j : Nat) (v : U8)
    (hi : i < fieldSize c f) (hj : j < fieldSize c g) :
    (readField c g j (writeField c f i v w).2).1 =
      if g = f ∧ j = i then v else (readField c g j w).1 := by
  rw [write_eq c f i v hi, read_eq c g j hj, read_eq c g j hj]
  by_cases h : g = f ∧ j = i
  · obtain ⟨rfl, rfl⟩ := h; simp
  · rw [if_neg h]
    have : addrOf c g + j ≠ addrOf c f + i := by
      intro he
      by_cases hfg : g = f
      · subst hfg; exact h ⟨rfl, by omega⟩
      · exact hfg ((C12_partition c (addrOf c g + j)).2 g f ⟨by omega, by omega⟩ ⟨by omega, by omega⟩)
    simp [this]

/-- C13: the only effect of a write is one byte in the memory, at an address of the field; a read has no effect at
all. -/
theorem C13_effect (c : Cfg) (w : W) (f : Field) (i : Nat) (v : U8) (hi : i < fieldSize c f) :
    (∃ a, Owns c f a ∧ (writeField c f i v w).2 = { w with
      ps := fun x => if x = a then v else w.ps x, out := w.out ++ [.psW a v] }) ∧
    (readField c f i w).2 = w :=
  ⟨⟨addrOf c f + i, ⟨by omega, by omega⟩, by rw [write_eq c f i v hi]⟩, by rw [read_eq c f i hi]⟩

/-- C13: an index outside of the field reads 0 and writes nothing. -/
theorem C13_out_of_range (c : Cfg) (w : W) (f : Field) (i : Nat) (v : U8) (hf : f.indexed = true)
    (hi : fieldSize c f ≤ i) :
    readField c f i w = (0, w) ∧ writeField c f i v w = ((), w) := by
  have key : ∀ a s, s ≤ i → readIdx a s i w = (0, w) := by
    intro a s h; rw [readIdx, if_neg (by omega)]; rfl
  have key2 : ∀ a s, s ≤ i → writeIdx a s i v w = ((), w) := by
    intro a s h; rw [writeIdx, if_neg (by omega)]; rfl
  cases f <;> first
    | exact ⟨key _ _ hi, key2 _ _ hi⟩
    | simp [Field.indexed] at hf

/-- The bytes of a memory region after a block was written. -/
theorem bytesAt_read (a : Nat) (l : List U8) (ps : Nat → U8) (i : Nat) (hi : i < l.length) :
    applyWrites ps (bytesAt a l) (a + i) = l[i] := by
  induction l generalizing a ps i with
  | nil => simp at hi
  | cons b l ih =>
    cases i with
    | zero =>
      simp only [bytesAt, applyWrites, Nat.add_zero, List.getElem_cons_zero]
      rw [applyWrites_other]
      · simp
      · intro x hx; have := mem_bytesAt hx; omega
    | succ i =>
      simp only [bytesAt, applyWrites, List.getElem_cons_succ]
      rw [show a + (i + 1) = a + 1 + i by omega]
      exact ih (a + 1) _ i (by simpa using hi)

/-- C13: a block written to the decision matrix reads back, as a block and byte by byte, and no other byte
of the matrix changes; a block which does not fit is not written at all. -/
theorem C13_block (c : Cfg) (w : W) (i : Nat) (l : List U8) :
    (i + l.length ≤ sizeDm c → 0 < l.length →
      (readDmMultiple c i l.length (writeDmMultiple c i l w).2).1 = some l ∧
      ∀ j, j < sizeDm c → (readDm c j (writeDmMultiple c i l w).2).1 =
        if h : i ≤ j ∧ j < i + l.length then l[j - i] else (readDm c j w).1) ∧
    (sizeDm c < i + l.length → writeDmMultiple c i l w = ((), w)) := by
  constructor
  · intro hi hl
    have hw : (writeDmMultiple c i l w).2 = writeAll (bytesAt (addrDm c + i) l) w := by
      rw [writeDmMultiple, if_pos ⟨hl, hi⟩, Writes.multiple]
    have hb : ∀ j (h : j < l.length), applyWrites w.ps (bytesAt (addrDm c + i) l) (addrDm c + i + j) = l[j] :=
      fun j h => bytesAt_read _ _ _ _ h
    constructor
    · rw [hw, readDmMultiple, if_pos ⟨hl, hi⟩]
      simp only [map_run, psReadMultiple_run, writeAll, Option.some.injEq]
      apply List.ext_getElem
      · simp
      · intro j h1 h2
        simp only [List.getElem_map, List.getElem_range]
        exact hb j h2
    · intro j hj
      rw [hw]
      simp only [readDm, readIdx, gt_iff_lt, hj, if_true]
      simp only [psRead8_run, writeAll]
      split
      · rename_i h
        have := hb (j - i) (by omega)
        rw [show addrDm c + i + (j - i) = addrDm c + j by omega] at this
        exact this
      · rename_i h
        apply applyWrites_other
        intro x hx
        have := mem_bytesAt hx
        omega
  · intro h
    rw [writeDmMultiple, if_neg (by omega)]; rfl

/-- GUID byte 3 and nickname of the example configuration. -/
example : (3 : Nat) < fieldSize Ex.ctx .guid ∧ (0 : Nat) < fieldSize Ex.ctx .nickname ∧
    Field.guid.indexed = true ∧ fieldSize Ex.ctx .guid ≤ 16 ∧ 8 + 8 ≤ sizeDm Ex.ctx := by decide

end Vscp.Ps
