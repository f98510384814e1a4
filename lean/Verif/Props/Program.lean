/-
Property C100: a decision matrix which is written by events is in force.
-/
import Verif.Props.DmRegs
import Verif.Props.Dm
import Verif.Props.Pages
import Verif.Props.Restart
import Verif.Spec.Program

namespace Vscp.ProgramProps
open M Vscp.Spec Vscp.Spec.Dm Ps Vscp.Safety Vscp.DmRegs Vscp.DmProps Vscp.Pages Transport

/-- Bytes stored in the memory. -/
def storeMem (ps : Nat → U8) (a : Nat) (vs : List U8) : Nat → U8 :=
  fun x => if a ≤ x ∧ x < a + vs.length then vs.getD (x - a) 0 else ps x

theorem storeMem_nil (ps : Nat → U8) (a : Nat) : storeMem ps a [] = ps := by
  funext x
  unfold storeMem
  rw [if_neg (by simp)]

theorem storeMem_cons (ps : Nat → U8) (a : Nat) (v : U8) (vs : List U8) :
    storeMem (fun x => if x = a then v else ps x) (a + 1) vs = storeMem ps a (v :: vs) := by
  funext x
  unfold storeMem
  simp only [List.length_cons]
  by_cases h1 : x = a
  · subst h1
    rw [if_neg (by omega), if_pos rfl, if_pos (by omega)]
    simp
  · by_cases h2 : a + 1 ≤ x ∧ x < a + 1 + vs.length
    · rw [if_pos h2, if_pos (by omega)]
      obtain ⟨k, rfl⟩ := Nat.exists_eq_add_of_le h2.1
      rw [show a + 1 + k - (a + 1) = k by omega, show a + 1 + k - a = k + 1 by omega]
      rfl
    · rw [if_neg h2, if_neg h1, if_neg (by omega)]

/-- Writing a register of the matrix. -/
theorem write_run {c : Ctx} (h : Std c) {page : U16} {addr : U8} (hv : ¬(page = 0 ∧ 0x80 ≤ addr.toNat))
    (hc : Dm.isDecisionMatrix c page addr = true) (w : W) (he : writeEnable (w.ps (addrFlags c)) = true) (v : U8)
    (hb : byteOf c page addr < 8 * c.dmRows) :
    Core.writeRegister c page addr v w = ((v, false), { w with
      ps := fun a => if a = addrDm c + byteOf c page addr then v else w.ps a
      out := w.out ++ [.psW (addrDm c + byteOf c page addr) v] }) := by
  obtain ⟨r, o, h1, h2⟩ := byte_eq h hc
  have hs : sizeDm c = c.dmRows * 8 := by unfold sizeDm; rw [if_pos h.dm]
  rw [writeRegister_outer hv (by unfold accepted; rw [if_neg hv]; exact he)]
  simp only
  rw [if_pos ⟨h.dm, hc⟩]
  unfold Dm.writeRegister
  rw [if_neg (by simp [h.paged])]
  unfold Dm.writeRegisterStd
  rw [h1]
  simp only [bind_run]
  unfold readDm writeDm writeIdx readIdx
  rw [h2, hs, if_pos (by omega), if_pos (by omega)]
  simp only [psRead8_run, psWrite8_run]
  simp

theorem addresses_succ (addr : U8) (n : Nat) : addresses addr (n + 1) = addr :: addresses (addr + 1) n := by
  unfold addresses
  rw [List.range_succ_eq_map, List.map_cons, List.map_map]
  congr 1
  · simp
  · apply List.map_congr_left
    intro i _
    simp only [Function.comp_def, Nat.succ_eq_add_one]
    apply BitVec.eq_of_toNat_eq
    simp only [BitVec.toNat_add, BitVec.toNat_ofNat, show (1 : U8).toNat = 1 from rfl]
    omega

/-- Writing consecutive registers of the matrix. -/
theorem writeRegs_run {c : Ctx} (h : Single c) {page : U16} (hp : page.toNat = c.dmPage) (vs : List U8) (addr : U8)
    (hlo : c.dmOffset.toNat ≤ addr.toNat) (hhi : addr.toNat + vs.length ≤ 8 * c.dmRows)
    (hv : c.dmPage ≠ 0 ∨ addr.toNat + vs.length ≤ 0x80) (w : W) (he : writeEnable (w.ps (addrFlags c)) = true) :
    ∃ t, writeRegs c page ((addresses addr vs.length).zip vs) w = (vs, { w with
      ps := storeMem w.ps (addrDm c + (addr.toNat - c.dmOffset.toNat)) vs, out := w.out ++ t }) ∧ ∀ o ∈ t, ∃ a v, o = .psW a v := by
  induction vs generalizing addr w with
  | nil => exact ⟨[], by simp [writeRegs, addresses, storeMem_nil], by simp⟩
  | cons v vs ih =>
    simp only [List.length_cons] at hhi hv
    have hlt := h.few
    have hz : page = 0 → c.dmPage = 0 := fun e => by rw [← hp, e]; rfl
    have hnv : ¬(page = 0 ∧ 0x80 ≤ addr.toNat) := by
      rintro ⟨e, h80⟩
      rcases hv with hv | hv
      · exact hv (hz e)
      · omega
    have hc : Dm.isDecisionMatrix c page addr = true := (single_claimed h page addr).mpr ⟨hp, hlo, by omega⟩
    have hb : byteOf c page addr = addr.toNat - c.dmOffset.toNat := by unfold byteOf; rw [if_pos hp]
    have hw := write_run h.toStd hnv hc w he v (by omega)
    rw [hb] at hw
    rw [List.length_cons, addresses_succ, List.zip_cons_cons]
    unfold writeRegs
    simp only [hw]
    cases vs with
    | nil =>
      refine ⟨[.psW (addrDm c + (addr.toNat - c.dmOffset.toNat)) v], ?_, by simp⟩
      simp only [addresses, List.length_nil, List.range_zero, List.map_nil, List.zip_nil_left, writeRegs]
      rw [← storeMem_cons, storeMem_nil]
    | cons v2 vs =>
      have ha1 : (addr + 1).toNat = addr.toNat + 1 := by
        simp only [BitVec.toNat_add, show (1 : U8).toNat = 1 from rfl]
        simp only [List.length_cons] at hhi
        omega
      have hfl : addrFlags c ≠ addrDm c + (addr.toNat - c.dmOffset.toNat) := by
        unfold addrDm addrLogId addrType addrFam addrMdf addrManuSub addrManu addrSubZone addrZone addrGuid addrUserId sizeFlags
        omega
      obtain ⟨t, ht, hto⟩ := ih (addr + 1) (by rw [ha1]; omega) (by rw [ha1]; simp only [List.length_cons] at hhi ⊢; omega)
        (by rw [ha1]; simp only [List.length_cons] at hv ⊢; omega)
        { w with ps := fun a => if a = addrDm c + (addr.toNat - c.dmOffset.toNat) then v else w.ps a,
                 out := w.out ++ [.psW (addrDm c + (addr.toNat - c.dmOffset.toNat)) v] }
        (by simp only [if_neg hfl]; exact he)
      refine ⟨.psW (addrDm c + (addr.toNat - c.dmOffset.toNat)) v :: t, ?_, ?_⟩
      · rw [ht]
        simp only
        rw [← storeMem_cons (vs := v2 :: vs), ha1, show addr.toNat + 1 - c.dmOffset.toNat = addr.toNat - c.dmOffset.toNat + 1 by omega,
          ← Nat.add_assoc]
        simp only [List.append_assoc, List.singleton_append]
      · intro o ho
        rcases List.mem_cons.mp ho with rfl | ho
        · exact ⟨_, _, rfl⟩
        · exact hto o ho

/-- The matrix as it is stored behind the writing. -/
theorem matrix_store {c : Cfg} (hd : c.dm = true) (ps : Nat → U8) (b : Nat) (vs : List U8) (hb : b + vs.length ≤ 8 * c.dmRows) :
    matrix c (storeMem ps (addrDm c + b) vs) = (matrix c ps).store b vs := by
  have low : ∀ x, x < addrDm c → storeMem ps (addrDm c + b) vs x = ps x := by
    intro x hx; unfold storeMem; rw [if_neg (by omega)]
  have high : ∀ x, addrDm c + 8 * c.dmRows ≤ x → storeMem ps (addrDm c + b) vs x = ps x := by
    intro x hx; unfold storeMem; rw [if_neg (by omega)]
  unfold matrix Matrix.store
  simp only [Matrix.mk.injEq, true_and]
  refine ⟨?_, ?_, ?_, ?_⟩
  · by_cases hz : c.zonePs = true
    · rw [if_pos hz, if_pos hz]
      apply low
      unfold addrDm addrLogId addrType addrFam addrMdf addrManuSub addrManu addrSubZone sizeZone
      rw [if_pos hz]
      omega
    · rw [if_neg hz, if_neg hz]
  · by_cases hz : c.subZonePs = true
    · rw [if_pos hz, if_pos hz]
      apply low
      unfold addrDm addrLogId addrType addrFam addrMdf addrManuSub addrManu sizeSubZone
      rw [if_pos hz]
      omega
    · rw [if_neg hz, if_neg hz]
  · funext i k
    unfold storeMem
    by_cases h : b ≤ i * 8 + k ∧ i * 8 + k < b + vs.length
    · rw [if_pos (by omega), if_pos h]
      congr 1
      omega
    · rw [if_neg (by omega), if_neg h]
  · funext i k
    apply high
    unfold addrDmExt sizeDm
    rw [if_pos hd]
    omega

/-- A place of the matrix, and bytes which fit in there. -/
structure Fits (c : Cfg) (b : Nat) (vs : List U8) : Prop where
  inside : c.dmOffset.toNat + b + vs.length ≤ 8 * c.dmRows
  page0 : c.dmPage ≠ 0 ∨ c.dmOffset.toNat + b + vs.length ≤ 0x80

/-- One write event. -/
theorem cycle_store {c : Ctx} (h : Single c) (w : W) (rx : Option Msg)
    (he : writeEnable (w.ps (addrFlags c)) = true) (b : Nat) (vs : List U8) (m : Msg) (hx : Takes c rx w m) (hf : Fits c b vs)
    (hm : WriteEvent w.v.nick c.dmPage (c.dmOffset.toNat + b) vs m) :
    let w' := (stepOp c (.process rx) w).2
    w'.v.st = .active ∧ w'.v.nick = w.v.nick ∧ w'.ps = storeMem w.ps (addrDm c + b) vs ∧
      ∃ t, w'.out = w.out ++ t ∧ event c w.v.nick 3 39 ([0, BitVec.ofNat 8 (c.dmPage / 256), BitVec.ofNat 8 (c.dmPage % 256),
        BitVec.ofNat 8 (c.dmOffset.toNat + b)] ++ vs) ∈ frames t := by
  intro w'
  have ha := hx.1
  obtain ⟨w1, t1, h1, -, hsame, htail⟩ := takes_cycle hx hm.request.cls
  have e1 : w1.v.nick = w.v.nick := hsame .nick (by decide)
  have e2 : w1.v.st = w.v.st := hsame .st (by decide)
  have e3 : w1.ps = w.ps := hsame .ps (by decide)
  have hpg : (BitVec.ofNat 8 (c.dmPage / 256)).toNat * 256 + (BitVec.ofNat 8 (c.dmPage % 256)).toNat = c.dmPage := by
    have := hm.pageOk
    simp only [BitVec.toNat_ofNat]
    omega
  have had : (BitVec.ofNat 8 (c.dmOffset.toNat + b)).toNat = c.dmOffset.toNat + b := by
    have := hm.addrOk
    simp only [BitVec.toNat_ofNat]
    omega
  have hfew := h.few
  have hin := hf.inside
  have hk : min vs.length (256 - (c.dmOffset.toNat + b)) = vs.length := by omega
  obtain ⟨t, txe, h2, h3⟩ := C25_extended_page_write c w1 m _ _ _ vs (by rw [e1]; exact hm.request) hm.some hm.fits
  rw [had, hpg, hk, List.take_length] at h2 h3
  obtain ⟨t', hw, hto⟩ := writeRegs_run h (page := BitVec.ofNat 16 c.dmPage)
    (by have := hm.pageOk; simp only [BitVec.toNat_ofNat]; omega) vs (BitVec.ofNat 8 (c.dmOffset.toNat + b))
    (by rw [had]; omega) (by rw [had]; omega) (by rw [had]; exact hf.page0) w1 (by rw [e3]; exact he)
  rw [hw] at h2 h3
  rw [had, show c.dmOffset.toNat + b - c.dmOffset.toNat = b by omega] at h2
  have s1 := htail.steps.same .st (by decide)
  have s2 := htail.steps.same .nick (by decide)
  have s3 := htail.steps.same .ps (by decide)
  simp only [Comp.same] at s1 s2 s3
  obtain ⟨t2, h4, -⟩ := htail.sends
  have h2' : (Core.handleProtocolClassType c m w1).2 = _ := h2
  rw [h2'] at s1 s2 s3 h4
  refine ⟨?_, ?_, ?_, ?_⟩
  · exact s1.trans (e2.trans ha)
  · exact s2.trans e1
  · exact s3.trans (by rw [e3])
  · refine ⟨t1 ++ (t ++ t2), ?_, ?_⟩
    · show (Core.process c rx w).2.out = _
      rw [h4, h1]
      simp only [List.append_assoc]
    · rw [frames_append, frames_append, h3, e1]
      simp

theorem flags_low (c : Cfg) : addrFlags c < addrDm c := by
  unfold addrDm addrLogId addrType addrFam addrMdf addrManuSub addrManu addrSubZone addrZone addrGuid addrUserId sizeFlags
  omega

theorem nickname_low (c : Cfg) : addrNickname c < addrDm c := by
  have := flags_low c
  unfold addrFlags addrSegCrc at this
  omega

/-- What happens in turn: a write event is received (`store`: by the call `vscp_core_process` with `rx` as the message of the adapter), or anything
else. -/
inductive Turn
  | store (rx : Option Msg) (m : Msg) (b : Nat) (vs : List U8)
  | other (op : Op)

def Turn.op : Turn → Op
  | .store rx .. => .process rx
  | .other op => op

/-- The program in a list of turns: places and bytes. -/
def stores (l : List Turn) : List (Nat × List U8) := l.filterMap fun t => match t with | .store _ _ b vs => some (b, vs) | .other _ => none

/-- The node receives the write events, each for bytes of the matrix, and everything else leaves its memory, nickname and state alone (ticks,
reads, events for others and so on, see C95). -/
def Heard (c : Ctx) : List Turn → W → Prop
  | [], _ => True
  | .store rx m b vs :: l, w => Takes c rx w m ∧ Fits c b vs ∧ WriteEvent w.v.nick c.dmPage (c.dmOffset.toNat + b) vs m ∧
      Heard c l (stepOp c (.process rx) w).2
  | .other op :: l, w => ((stepOp c op w).2.ps = w.ps ∧ (stepOp c op w).2.v.nick = w.v.nick ∧ (stepOp c op w).2.v.st = w.v.st) ∧
      Heard c l (stepOp c op w).2

/-- C100: write events for the matrix, in any number and order, are carried out; afterwards the stored matrix is the one which was asked for,
nothing else in the memory is changed, and the node is active under the same nickname. -/
theorem C100_program {c : Ctx} (h : Single c) (l : List Turn) (w : W) (ha : w.v.st = .active)
    (he : writeEnable (w.ps (addrFlags c)) = true) (hl : Heard c l w) :
    let w' := runOps c (l.map Turn.op) w
    w'.v.st = .active ∧ w'.v.nick = w.v.nick ∧ matrix c w'.ps = (matrix c w.ps).program (stores l) ∧
      (∀ a, a < addrDm c ∨ addrDm c + 8 * c.dmRows ≤ a → w'.ps a = w.ps a) := by
  induction l generalizing w with
  | nil => exact ⟨ha, rfl, rfl, fun _ _ => rfl⟩
  | cons t l ih =>
    intro w'
    cases t with
    | other op =>
      obtain ⟨⟨k1, k2, k3⟩, hl⟩ := hl
      obtain ⟨g1, g2, g3, g4⟩ := ih (stepOp c op w).2 (k3.trans ha) (by rw [k1]; exact he) hl
      exact ⟨g1, g2.trans k2, by rw [k1] at g3; exact g3, fun a hx => by rw [k1] at g4; exact g4 a hx⟩
    | store rx m b vs =>
      obtain ⟨htk, hf, hw, hl⟩ := hl
      obtain ⟨h1, h2, h3, -⟩ := cycle_store h w rx he b vs m htk hf hw
      obtain ⟨w1, hw1⟩ : ∃ w1, w1 = (stepOp c (.process rx) w).2 := ⟨_, rfl⟩
      rw [← hw1] at h1 h2 h3 hl
      have hin := hf.inside
      have keep : ∀ a, a < addrDm c ∨ addrDm c + 8 * c.dmRows ≤ a → w1.ps a = w.ps a := by
        intro a hx
        rw [h3]
        unfold storeMem
        rw [if_neg (by omega)]
      have e : w' = runOps c (l.map Turn.op) w1 := by rw [hw1]; rfl
      obtain ⟨g1, g2, g3, g4⟩ := ih w1 h1 (by rw [keep _ (.inl (flags_low c))]; exact he) hl
      rw [e]
      refine ⟨g1, g2.trans h2, ?_, fun a hx => (g4 a hx).trans (keep a hx)⟩
      rw [g3, h3, matrix_store h.dm _ _ _ (by omega)]
      rfl

/-- C100: each write event is confirmed by a response with the bytes. -/
theorem C100_confirmed {c : Ctx} (h : Single c) (w : W) (rx : Option Msg) (he : writeEnable (w.ps (addrFlags c)) = true)
    (b : Nat) (vs : List U8) (m : Msg) (hx : Takes c rx w m) (hf : Fits c b vs)
    (hm : WriteEvent w.v.nick c.dmPage (c.dmOffset.toNat + b) vs m) :
    ∃ t, (stepOp c (.process rx) w).2.out = w.out ++ t ∧ event c w.v.nick 3 39 ([0, BitVec.ofNat 8 (c.dmPage / 256),
      BitVec.ofNat 8 (c.dmPage % 256), BitVec.ofNat 8 (c.dmOffset.toNat + b)] ++ vs) ∈ frames t :=
  (cycle_store h w rx he b vs m hx hf hm).2.2.2

/-- C100: the next event is handled by the matrix which was asked for: the rows of it which fire are executed, in order, and no other
action (but those of the next generation matrix). -/
theorem C100_in_force {c : Ctx} (h : Single c) (l : List Turn) (w : W) (ha : w.v.st = .active)
    (he : writeEnable (w.ps (addrFlags c)) = true) (hl : Heard c l w) (rx : Option Msg) (m : Msg)
    (hrx : (readMessage c rx (runOps c (l.map Turn.op) w)).1 = some m) (hm : m.size.toNat ≤ 8) (hcls : m.cls ≠ 0) :
    let w' := runOps c (l.map Turn.op) w
    ∃ ng t, (stepOp c (.process rx) w').2.out =
        w'.out ++ ([.event m] ++ (calls ((matrix c w.ps).program (stores l)) m m.data.toList ++ ng) ++ t) ∧
      actions t = [] ∧ (c.dmNg = false → ng = []) := by
  intro w'
  obtain ⟨h1, h2, h3, -⟩ := C100_program h l w ha he hl
  obtain ⟨t0, ng, t1, g1, -, g3, g4, g5, -⟩ := C49_cycle c rx m w' h.dm h.rows h1 hrx hm
  rw [g4 hcls] at g1
  refine ⟨ng, t1, ?_, g3, g5⟩
  rw [g1]
  have : memAfter w'.ps [.event m] = w'.ps := rfl
  rw [this, h3]

/-- A node which starts with valid flags and a nickname, after its first call of `vscp_core_process`. -/
theorem restarted {c : Ctx} (ok : Tmr → Bool) (hok : timersGood c ok = true) (ps : Nat → U8)
    (hv : validStartUp (ps (addrFlags c)) = true) (hn : ps (addrNickname c) ≠ 0xFF) (rx : Option Msg) :
    (node c ok ps [.process rx]).v.st = .active ∧ (node c ok ps [.process rx]).ps = ps := by
  obtain ⟨h1, h2, -, -, -, h5, -⟩ := RestartProps.start (c := c) ok ps hv
  generalize hw : node c ok ps [] = w at h1 h2 h5
  have e : node c ok ps [.process rx] = (Core.process c rx w).2 := by rw [← hw]; rfl
  rw [e, process_startup (h5 hok)]
  have p1 := pre_same c rx w .nick (by decide)
  have p3 := pre_same c rx w .ps (by decide)
  simp only [Comp.same] at p1 p3
  generalize (preProcess c rx w).2 = w1 at p1 p3
  have hne : ¬ w1.v.nick = Core.NOT_INIT := by rw [p1, h2]; exact hn
  have e2 : (Core.stateStartup c (readMessage c rx w).1 w1).2 = (Core.changeToStateActive c w1).2 := by
    unfold Core.stateStartup
    rw [bind_run, get_run]
    dsimp only
    rw [ite_run, if_neg hne]
  rw [e2]
  refine ⟨Probe.active_st c w1, ?_⟩
  have := (Foot.changeToStateActive (c := c) (bad := True) (List.Subset.refl _) w1).same .ps (by decide)
  simp only [Comp.same] at this
  rw [this, p3, h1]

/-- C100: also after power off and on. -/
theorem C100_restart {c : Ctx} (h : Single c) (l : List Turn) (w : W) (ha : w.v.st = .active)
    (he : writeEnable (w.ps (addrFlags c)) = true) (hl : Heard c l w) (hv : validStartUp (w.ps (addrFlags c)) = true)
    (hn : w.ps (addrNickname c) ≠ 0xFF) (ok : Tmr → Bool) (hok : timersGood c ok = true) (rx0 rx : Option Msg) (m : Msg) :
    let w' := node c ok (runOps c (l.map Turn.op) w).ps [.process rx0]
    (readMessage c rx w').1 = some m → m.size.toNat ≤ 8 → m.cls ≠ 0 →
    ∃ ng t, (stepOp c (.process rx) w').2.out =
        w'.out ++ ([.event m] ++ (calls ((matrix c w.ps).program (stores l)) m m.data.toList ++ ng) ++ t) ∧
      actions t = [] ∧ (c.dmNg = false → ng = []) := by
  intro w' hrx hm hcls
  obtain ⟨-, -, h3, h4⟩ := C100_program h l w ha he hl
  obtain ⟨r1, r2⟩ := restarted (c := c) ok hok (runOps c (l.map Turn.op) w).ps (by rw [h4 _ (.inl (flags_low c))]; exact hv)
    (by rw [h4 _ (.inl (nickname_low c))]; exact hn) rx0
  obtain ⟨t0, ng, t1, g1, -, g3, g4, g5, -⟩ := C49_cycle c rx m w' h.dm h.rows r1 hrx hm
  rw [g4 hcls] at g1
  refine ⟨ng, t1, ?_, g3, g5⟩
  rw [g1]
  have : memAfter w'.ps [.event m] = w'.ps := rfl
  rw [this, ← h3]
  show w'.out ++ ([.event m] ++ (calls (matrix c w'.ps) m m.data.toList ++ ng) ++ t1) = _
  rw [r2]

/-- C100: the eight bytes of a row, written by two events, are the row; all other rows are as before. -/
theorem C100_row (x : Matrix) (i : Nat) (r : Nat → U8) :
    let y := x.program [(i * 8, [r 0, r 1, r 2, r 3]), (i * 8 + 4, [r 4, r 5, r 6, r 7])]
    (∀ k, k < 8 → y.row i k = r k) ∧ (∀ j k, k < 8 → j ≠ i → y.row j k = x.row j k) ∧ y.rows = x.rows ∧ y.zone = x.zone ∧
      y.subZone = x.subZone := by
  intro y
  refine ⟨fun k hk => ?_, fun j k hk hj => ?_, rfl, rfl, rfl⟩
  · simp only [y, Matrix.program, Matrix.store, List.length_cons, List.length_nil]
    have : k = 0 ∨ k = 1 ∨ k = 2 ∨ k = 3 ∨ k = 4 ∨ k = 5 ∨ k = 6 ∨ k = 7 := by omega
    rcases this with rfl | rfl | rfl | rfl | rfl | rfl | rfl | rfl <;> simp
    all_goals (intros; omega)
  · simp only [y, Matrix.program, Matrix.store, List.length_cons, List.length_nil]
    rw [if_neg (by omega), if_neg (by omega)]

/-! ### A concrete program -/

/-- Row 2 is to execute action 9 with parameter 4 for every event of class 20 (information): two write events, and some time in between. -/
def exTurns : List Turn :=
  [.store (some (Ex.msg 0 38 9 [5, 0, 1, 16, 0, 0x80, 0xFF, 20])) (Ex.msg 0 38 9 [5, 0, 1, 16, 0, 0x80, 0xFF, 20]) 16 [0, 0x80, 0xFF, 20],
   .other (.tick 20),
   .store (some (Ex.msg 0 38 9 [5, 0, 1, 20, 0, 0, 9, 4])) (Ex.msg 0 38 9 [5, 0, 1, 20, 0, 0, 9, 4]) 20 [0, 0, 9, 4]]

def exStart : W := node Ex.ctx allOk (mem 0x60) [.process none]

theorem exTick (w : W) : (stepOp Ex.ctx (.tick 20) w).2.ps = w.ps ∧ (stepOp Ex.ctx (.tick 20) w).2.v.nick = w.v.nick ∧
    (stepOp Ex.ctx (.tick 20) w).2.v.st = w.v.st := ⟨rfl, rfl, rfl⟩

theorem exHeard : Heard Ex.ctx exTurns exStart := by
  refine ⟨⟨by decide +kernel, by decide +kernel, fun h => by cases h⟩, ⟨by decide, by decide⟩,
    ⟨⟨by decide, by decide, by decide, ?_⟩, by decide, by decide, by decide, by decide⟩, exTick _,
    ⟨by decide +kernel, by decide +kernel, fun h => by cases h⟩, ⟨by decide, by decide⟩,
    ⟨⟨by decide, by decide, by decide, ?_⟩, by decide, by decide, by decide, by decide⟩, trivial⟩ <;> decide +kernel

example : exStart.v.st = .active ∧ writeEnable (exStart.ps (addrFlags Ex.ctx.toCfg)) = true ∧
    validStartUp (exStart.ps (addrFlags Ex.ctx.toCfg)) = true ∧ exStart.ps (addrNickname Ex.ctx.toCfg) = 5 ∧
    timersGood Ex.ctx.toCfg allOk = true ∧
    actions (runOps Ex.ctx (exTurns.map Turn.op ++ [.process (some (Ex.msg 20 3 7 []))]) exStart).out = [.action 9 4 (Ex.msg 20 3 7 [])] ∧
    actions (node Ex.ctx allOk (runOps Ex.ctx (exTurns.map Turn.op) exStart).ps [.process none, .process (some (Ex.msg 20 3 7 []))]).out =
      [.action 9 4 (Ex.msg 20 3 7 [])] := by decide +kernel

end Vscp.ProgramProps
