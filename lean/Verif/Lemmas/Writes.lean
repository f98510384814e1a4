/-
Functions which do nothing but write bytes to the persistent memory, and the factory restore as a list
of such writes.
-/
import Verif.Model.Core

namespace Vscp
open M

/-- The memory after a list of byte writes. -/
def applyWrites (ps : Nat → U8) : List (Nat × U8) → Nat → U8
  | [] => ps
  | x :: l => applyWrites (fun a => if a = x.1 then x.2 else ps a) l

/-- The trace of a list of byte writes. -/
def traceOf (l : List (Nat × U8)) : List Out := l.map fun x => .psW x.1 x.2

/-- The world after a list of byte writes. -/
def writeAll (l : List (Nat × U8)) (w : W) : W :=
  { w with ps := applyWrites w.ps l, out := w.out ++ traceOf l }

/-- `m` writes exactly `l`. -/
def Writes (l : List (Nat × U8)) (m : M Unit) : Prop := ∀ w, m w = ((), writeAll l w)

theorem applyWrites_append (ps : Nat → U8) (l l' : List (Nat × U8)) :
    applyWrites ps (l ++ l') = applyWrites (applyWrites ps l) l' := by
  induction l generalizing ps with
  | nil => rfl
  | cons x l ih => simp [applyWrites, ih]

theorem writeAll_append (l l' : List (Nat × U8)) (w : W) : writeAll (l ++ l') w = writeAll l' (writeAll l w) := by
  simp [writeAll, applyWrites_append, traceOf]

/-- An address which is not written keeps its value. -/
theorem applyWrites_other {ps : Nat → U8} {l : List (Nat × U8)} {a : Nat} (h : ∀ x ∈ l, x.1 ≠ a) :
    applyWrites ps l a = ps a := by
  induction l generalizing ps with
  | nil => rfl
  | cons x l ih =>
    simp only [applyWrites]
    rw [ih (fun y hy => h y (List.mem_cons_of_mem _ hy))]
    have := h x (List.mem_cons_self ..)
    rw [if_neg (fun h => this h.symm)]

/-- The last write of an address counts. -/
theorem applyWrites_last {ps : Nat → U8} {l l' : List (Nat × U8)} {a : Nat} {v : U8} (h : ∀ x ∈ l', x.1 ≠ a) :
    applyWrites ps (l ++ (a, v) :: l') a = v := by
  rw [applyWrites_append]
  simp only [applyWrites]
  rw [applyWrites_other h, if_pos rfl]

theorem Writes.nil : Writes [] (pure ()) := fun w => by simp [writeAll, applyWrites, traceOf]

theorem Writes.write8 (a : Nat) (v : U8) : Writes [(a, v)] (psWrite8 a v) := fun w => by
  simp [writeAll, applyWrites, traceOf]

theorem Writes.seq {l l' m m'} (h : Writes l m) (h' : Writes l' m') : Writes (l ++ l') (do m; m') := fun w => by
  simp only [bind_run]
  rw [h w, h' _, writeAll_append]

theorem Writes.writeAll (l : List (Nat × U8)) : Writes l (psWriteAll l) := by
  induction l with
  | nil => exact Writes.nil
  | cons x l ih => exact (Writes.write8 x.1 x.2).seq ih

theorem Writes.whenM {p : Prop} [Decidable p] {l m} (h : Writes l m) :
    Writes (if p then l else []) (whenM p m) := fun w => by
  rw [whenM_run]; split
  · exact h w
  · exact Writes.nil w

theorem Writes.ite {p : Prop} [Decidable p] {l m l' m'} (h : Writes l m) (h' : Writes l' m') :
    Writes (if p then l else l') (if p then m else m') := by split <;> assumption

theorem Writes.forUp {f : Nat → M Unit} {g : Nat → List (Nat × U8)} (h : ∀ i, Writes (g i) (f i)) (n : Nat) :
    Writes ((List.range n).flatMap g) (forUp f n) := by
  induction n with
  | zero => exact Writes.nil
  | succ n ih =>
    rw [List.range_succ, List.flatMap_append]
    simpa [Vscp.forUp] using ih.seq (h n)

/-- The writes of consecutive bytes. -/
def bytesAt (a : Nat) : List U8 → List (Nat × U8)
  | [] => []
  | b :: bs => (a, b) :: bytesAt (a + 1) bs

theorem Writes.multiple (a : Nat) (l : List U8) : Writes (bytesAt a l) (psWriteMultiple a l) := by
  induction l generalizing a with
  | nil => exact Writes.nil
  | cons b l ih => exact (Writes.write8 a b).seq (ih (a + 1))

theorem mem_bytesAt {a : Nat} {l : List U8} {x : Nat × U8} (h : x ∈ bytesAt a l) : a ≤ x.1 ∧ x.1 < a + l.length := by
  induction l generalizing a with
  | nil => simp [bytesAt] at h
  | cons b l ih =>
    simp only [bytesAt, List.mem_cons] at h
    rcases h with rfl | h
    · simp
    · have := ih h; simp; omega

/-- The writes of an indexed accessor. -/
def idxW (addr size i : Nat) (v : U8) : List (Nat × U8) := if size > i then [(addr + i, v)] else []

theorem Writes.writeIdx (addr size i : Nat) (v : U8) : Writes (idxW addr size i v) (Ps.writeIdx addr size i v) := by
  unfold idxW Ps.writeIdx
  exact Writes.ite (Writes.write8 _ _) Writes.nil

theorem mem_idxW {addr size i v x} (h : x ∈ idxW addr size i v) : addr ≤ x.1 ∧ x.1 < addr + size ∧ x = (addr + i, v) := by
  unfold idxW at h
  split at h
  · simp at h; subst h; simp; omega
  · simp at h

namespace Restore

/-! The writes of the factory restore, part by part. -/

def devData (c : Cfg) : List (Nat × U8) :=
  (if c.guidPs then (List.range 16).flatMap fun i =>
    idxW (Ps.addrGuid c) (Ps.sizeGuid c) (16 - i - 1) (c.guid.toList.getD i 0) else []) ++
  ((if c.zonePs then [(Ps.addrZone c, c.zone)] else []) ++
  ((if c.subZonePs then [(Ps.addrSubZone c, c.subZone)] else []) ++
  ((if c.manuPs then (List.range 4).flatMap fun i =>
    idxW (Ps.addrManu c) (Ps.sizeManu c) i (DevData.memByte c c.manu i) else []) ++
  ((if c.manuSubPs then (List.range 4).flatMap fun i =>
    idxW (Ps.addrManuSub c) (Ps.sizeManuSub c) i (DevData.memByte c c.manuSub i) else []) ++
  ((if c.mdfPs then (List.range 32).flatMap fun i =>
    idxW (Ps.addrMdf c) (Ps.sizeMdf c) i (c.mdfUrl.getD i 0) else []) ++
  ((if c.familyEn ∧ c.famPs then (List.range 4).flatMap fun i =>
    idxW (Ps.addrFam c) (Ps.sizeFam c) i (DevData.shiftByte c.famCode i) else []) ++
  (if c.familyEn ∧ c.typePs then (List.range 4).flatMap fun i =>
    idxW (Ps.addrType c) (Ps.sizeType c) i (DevData.shiftByte c.devType i) else [])))))))

theorem devData_writes (c : Cfg) : Writes (devData c) (DevData.restore c) := by
  unfold DevData.restore devData
  refine Writes.seq (Writes.whenM (Writes.forUp (fun i => Writes.writeIdx _ _ _ _) _)) ?_
  refine Writes.seq (Writes.whenM (Writes.write8 _ _)) ?_
  refine Writes.seq (Writes.whenM (Writes.write8 _ _)) ?_
  refine Writes.seq (Writes.whenM (Writes.forUp (fun i => Writes.writeIdx _ _ _ _) _)) ?_
  refine Writes.seq (Writes.whenM (Writes.forUp (fun i => Writes.writeIdx _ _ _ _) _)) ?_
  refine Writes.seq (Writes.whenM (Writes.forUp (fun i => Writes.writeIdx _ _ _ _) _)) ?_
  refine Writes.seq (Writes.whenM (Writes.forUp (fun i => Writes.writeIdx _ _ _ _) _)) ?_
  exact (Writes.whenM (Writes.forUp (fun i => Writes.writeIdx _ _ _ _) _))

def dm (c : Cfg) : List (Nat × U8) :=
  (List.range c.dmRows).flatMap fun i =>
    (if 0 < 8 ∧ Ps.sizeDm c ≥ i + 8 then bytesAt (Ps.addrDm c + i) (List.replicate 8 0) else []) ++
    (if c.dmExt then (if Ps.sizeDmExt c ≥ i + 8 then bytesAt (Ps.addrDmExt c + i) (List.replicate 8 0) else []) else [])

theorem dm_writes (c : Cfg) : Writes (dm c) (Dm.restore c) := by
  unfold Dm.restore dm
  refine Writes.forUp (fun i => ?_) _
  refine Writes.seq ?_ (Writes.whenM ?_)
  · unfold Ps.writeDmMultiple
    rw [List.length_replicate]
    exact Writes.ite (Writes.multiple _ _) Writes.nil
  · unfold Ps.writeDmExtMultiple
    rw [List.length_replicate]
    exact Writes.ite (Writes.multiple _ _) Writes.nil

def ng (c : Cfg) : List (Nat × U8) :=
  (List.range c.ngSize).flatMap fun i => idxW (Ps.addrDmNg c) (Ps.sizeDmNg c) i 0

theorem ng_writes (c : Cfg) : Writes (ng c) (DmNg.restore c) :=
  Writes.forUp (fun _ => Writes.writeIdx _ _ _ _) _

/-- Everything behind the node control flags. -/
def rest (c : Cfg) : List (Nat × U8) :=
  ((List.range 5).flatMap fun i => idxW (Ps.addrUserId c) (Ps.sizeUserId c) i 0) ++ (devData c ++
    ((if c.dm then dm c else []) ++ (if c.dmNg then ng c else [])))

/-- All writes of the factory restore. -/
def all (c : Cfg) : List (Nat × U8) :=
  (Ps.addrNickname c, 0xFF) :: ((if c.hbSegment then [(Ps.addrSegCrc c, 0xFF)] else []) ++
    ((Ps.addrFlags c, 0xA0) :: rest c))

theorem rest_writes (c : Ctx) : Writes (rest c) (do
    forUp (fun i => Ps.writeUserId c i 0) (Ps.sizeUserId c)
    DevData.restore c
    whenM c.dm (Dm.restore c)
    whenM c.dmNg (DmNg.restore c)) := by
  unfold rest
  refine Writes.seq (Writes.forUp (fun i => Writes.writeIdx _ _ _ _) _) ?_
  refine Writes.seq (devData_writes _) ?_
  exact Writes.seq (Writes.whenM (dm_writes _)) (Writes.whenM (ng_writes _))

end Restore

/-- The node variables after a factory restore. -/
def Vars.restored (v : Vars) : Vars := { v with alarm := 0, page := 0, ext := ⟨0, 0, 0, 0⟩, nick := 0xFF }

/-- The factory restore. -/
theorem restore_run (c : Ctx) (w : W) : (Core.restoreFactoryDefaultSettings c w) =
    ((), { w with
      v := w.v.restored
      ps := applyWrites w.ps (Restore.all c)
      out := w.out ++ (traceOf (Restore.all c) ++ [.appRestore, .portRestore]) }) := by
  have h := Restore.rest_writes c
  have hs : Writes ((if c.hbSegment then [(Ps.addrSegCrc c, 0xFF)] else []) ++ ([(Ps.addrFlags c, 0xA0)] ++ Restore.rest c))
      (do
        whenM c.hbSegment (Ps.writeSegCrc c 0xFF)
        Ps.writeFlags c 0xA0
        forUp (fun i => Ps.writeUserId c i 0) (Ps.sizeUserId c)
        DevData.restore c
        whenM c.dm (Dm.restore c)
        whenM c.dmNg (DmNg.restore c)) :=
    Writes.seq (Writes.whenM (Writes.write8 _ _)) (Writes.seq (Writes.write8 _ _) h)
  have key : Core.restoreFactoryDefaultSettings c = (do
      setV fun v => { v with alarm := 0, page := 0, ext := ⟨0, 0, 0, 0⟩ }
      Core.writeNicknameId c Core.NOT_INIT
      (do
        whenM c.hbSegment (Ps.writeSegCrc c 0xFF)
        Ps.writeFlags c 0xA0
        forUp (fun i => Ps.writeUserId c i 0) (Ps.sizeUserId c)
        DevData.restore c
        whenM c.dm (Dm.restore c)
        whenM c.dmNg (DmNg.restore c))
      emit .appRestore
      emit .portRestore) := rfl
  rw [key]
  clear key h
  revert hs
  generalize (do
        whenM c.hbSegment (Ps.writeSegCrc c 0xFF)
        Ps.writeFlags c 0xA0
        forUp (fun i => Ps.writeUserId c i 0) (Ps.sizeUserId c)
        DevData.restore c
        whenM c.dm (Dm.restore c)
        whenM c.dmNg (DmNg.restore c)) = mid
  intro hs
  simp only [bind_run, hs _, setV_run, emit_run]
  simp only [Core.writeNicknameId, Ps.writeNickname, Ps.readNickname, bind_run, psWrite8_run, psRead8_run, setV_run,
    writeAll, Vars.restored, Restore.all, applyWrites, if_true, traceOf, Core.NOT_INIT]
  simp

end Vscp
