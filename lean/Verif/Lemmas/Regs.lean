/-
Registers: reads as functions of the state.
-/
import Verif.Lemmas.Ops
import Verif.Spec.Registers

namespace Vscp
open M Spec

/-! ### Frames -/

/-- A protocol frame of the node. -/
abbrev frame (c : Ctx) (w : W) (prio typ : U8) (l : List U8) : Msg := event c w.v.nick prio typ l

/-- The world after the transmission of a protocol frame. -/
def sent (c : Ctx) (m : Msg) (w : W) : W :=
  Transport.countErr (c.txOk w.out.length) { w with out := w.out ++ [.tx m (c.txOk w.out.length)] }

theorem tx_run (c : Ctx) (prio typ : U8) (l : List U8) (hl : l.length ≤ 8) (w : W) :
    Core.tx c prio typ l w = (c.txOk w.out.length, sent c (frame c w prio typ l) w) := by
  have hs : (BitVec.ofNat 8 l.length).toNat ≤ 8 := by simp only [BitVec.toNat_ofNat]; omega
  unfold Core.tx
  rw [bind_run, get_run]
  simp only
  rw [Transport.writeMessage_run, if_neg (fun h => h.2 hs)]
  have hb : Transport.beforeTx c ⟨prio, Transport.CLASS_PROTOCOL, typ, w.v.nick, c.hardCoded,
      BitVec.ofNat 8 l.length, bytes8 l⟩ w = w := by
    unfold Transport.beforeTx
    rw [if_neg]
    exact fun h => h.2.1 rfl
  rw [hb]
  rfl

theorem txVoid_run (c : Ctx) (prio typ : U8) (l : List U8) (hl : l.length ≤ 8) (w : W) :
    Core.txVoid c prio typ l w = ((), sent c (frame c w prio typ l) w) := by
  rw [Core.txVoid, bind_run, tx_run c prio typ l hl]; rfl

section
variable (c : Ctx) (m : Msg) (w : W)
@[simp] theorem sent_v : (sent c m w).v = w.v := by rw [sent, Transport.countErr_eq]
@[simp] theorem sent_ps : (sent c m w).ps = w.ps := by rw [sent, Transport.countErr_eq]
@[simp] theorem sent_tm : (sent c m w).tm = w.tm := by rw [sent, Transport.countErr_eq]
@[simp] theorem sent_lg : (sent c m w).lg = w.lg := by rw [sent, Transport.countErr_eq]
@[simp] theorem sent_dm : (sent c m w).dm = w.dm := by rw [sent, Transport.countErr_eq]
@[simp] theorem sent_ub : (sent c m w).ub = w.ub := by rw [sent, Transport.countErr_eq]
@[simp] theorem sent_lb : (sent c m w).tp.lb = w.tp.lb := by rw [sent, Transport.countErr_eq]
@[simp] theorem sent_out : (sent c m w).out = w.out ++ [.tx m (c.txOk w.out.length)] := by
  rw [sent, Transport.countErr_eq]
end

theorem payload_frame (c : Ctx) (w : W) (prio typ : U8) (l : List U8) (hl : l.length ≤ 8) :
    payload (frame c w prio typ l) = l := by
  have hs : (BitVec.ofNat 8 l.length).toNat = l.length := by simp; omega
  unfold payload frame event
  simp only [hs]
  apply List.ext_getElem
  · simp; omega
  · intro i h1 h2
    simp [bytes8]
    rw [List.getElem?_eq_getElem (by simpa using h2)]
    simp

theorem frames_append (t t' : List Out) : frames (t ++ t') = frames t ++ frames t' := List.filterMap_append
theorem appReads_append (t t' : List Out) : appReads (t ++ t') = appReads t ++ appReads t' := List.filterMap_append

/-! ### Reads -/

/-- The world after a read of a register which is not served by the application. -/
def alarmRead (page : U16) (addr : U8) (w : W) : W :=
  if page = 0 ∧ addr = 0x80 then { w with v := { w.v with alarm := 0 } } else w

theorem readIdx_snd (a s i : Nat) (w : W) : (Ps.readIdx a s i w).2 = w := by
  unfold Ps.readIdx; rw [ite_run]; split <;> rfl
theorem getGuid_snd (c : Ctx) (i : Nat) (w : W) : (DevData.getGuid c i w).2 = w := by
  unfold DevData.getGuid; simp only [ite_run]; split
  · exact readIdx_snd _ _ _ _
  · split <;> rfl
theorem getMdf_snd (c : Ctx) (i : Nat) (w : W) : (DevData.getMdf c i w).2 = w := by
  unfold DevData.getMdf; simp only [ite_run]; split
  · exact readIdx_snd _ _ _ _
  · rfl
theorem getManu_snd (c : Ctx) (i : Nat) (w : W) : (DevData.getManu c i w).2 = w := by
  unfold DevData.getManu; simp only [ite_run]; split
  · exact readIdx_snd _ _ _ _
  · rfl
theorem getManuSub_snd (c : Ctx) (i : Nat) (w : W) : (DevData.getManuSub c i w).2 = w := by
  unfold DevData.getManuSub; simp only [ite_run]; split
  · exact readIdx_snd _ _ _ _
  · rfl
theorem getFam_snd (c : Ctx) (i : Nat) (w : W) : (DevData.getFam c i w).2 = w := by
  unfold DevData.getFam; simp only [ite_run]
  split
  · split
    · rw [map_run]; exact readIdx_snd _ _ _ _
    · rfl
  · rfl
theorem getType_snd (c : Ctx) (i : Nat) (w : W) : (DevData.getType c i w).2 = w := by
  unfold DevData.getType; simp only [ite_run]
  split
  · split
    · rw [map_run]; exact readIdx_snd _ _ _ _
    · rfl
  · rfl
theorem getZone_snd (c : Ctx) (w : W) : (DevData.getZone c w).2 = w := by
  unfold DevData.getZone; simp only [ite_run]; split <;> rfl
theorem getSubZone_snd (c : Ctx) (w : W) : (DevData.getSubZone c w).2 = w := by
  unfold DevData.getSubZone; simp only [ite_run]; split <;> rfl

theorem ite_snd {α : Type} {p : Prop} {_ : Decidable p} {a b : M α} {w w' : W} (ha : (a w).2 = w') (hb : (b w).2 = w') :
    ((if p then a else b) w).2 = w' := by
  split
  · exact ha
  · exact hb

theorem ite_fst {α : Type} {p : Prop} {_ : Decidable p} {a b : M α} {w w' : W} (ha : (a w').1 = (a w).1)
    (hb : (b w').1 = (b w).1) : ((if p then a else b) w').1 = ((if p then a else b) w).1 := by
  split
  · exact ha
  · exact hb

set_option maxRecDepth 4000 in
theorem readVscpRegister_snd (c : Ctx) (addr : U8) (w : W) :
    (Core.readVscpRegister c addr w).2 = if addr = 0x80 then { w with v := { w.v with alarm := 0 } } else w := by
  by_cases h : addr = 0x80
  · subst h; rfl
  · rw [if_neg h]
    have h' : ¬ addr.toNat = 0x80 := fun e => h (BitVec.eq_of_toNat_eq e)
    unfold Core.readVscpRegister
    rw [if_neg h']
    repeat' refine ite_snd ?_ ?_
    all_goals first
      | rfl
      | exact readIdx_snd _ _ _ _
      | exact getGuid_snd _ _ _
      | exact getMdf_snd _ _ _
      | exact getManu_snd _ _ _
      | exact getManuSub_snd _ _ _
      | exact getFam_snd _ _ _
      | exact getType_snd _ _ _

theorem dmRead_snd (c : Ctx) (page : U16) (addr : U8) (w : W) : (Dm.readRegister c page addr w).2 = w := by
  unfold Dm.readRegister
  rw [ite_run]
  split
  · unfold Dm.readRegisterPaged
    simp only [ite_run, bind_run, get_run, pure_run]
    repeat' split
    all_goals first | rfl | exact readIdx_snd _ _ _ _
  · unfold Dm.readRegisterStd
    cases Dm.calculateMatrixIndex c page addr with
    | some r => exact readIdx_snd _ _ _ _
    | none => rfl

theorem ngReadReg_snd (c : Ctx) (page : U16) (addr : U8) (w : W) : (DmNg.readRegister c page addr w).2 = w := by
  unfold DmNg.readRegister
  rw [ite_run]
  split
  · exact readIdx_snd _ _ _ _
  · rfl

theorem not_appServed {c : Ctx} {page : U16} {addr : U8} (h : appServed c page addr = false) (w : W) :
    (Core.readRegister c page addr w).2 = alarmRead page addr w := by
  unfold Core.readRegister alarmRead
  simp only [ite_run]
  by_cases h1 : page = 0 ∧ 0x80 ≤ addr.toNat ∧ addr.toNat ≤ 0xFF
  · rw [if_pos h1, readVscpRegister_snd]
    simp [h1.1]
  · have h1' : ¬(page = 0 ∧ 0x80 ≤ addr.toNat) := fun h => h1 ⟨h.1, h.2, by have := addr.isLt; omega⟩
    have h2 : ¬(page = 0 ∧ addr = 0x80) := by
      rintro ⟨rfl, rfl⟩; exact h1' ⟨rfl, by decide⟩
    rw [if_neg h1, if_neg h2]
    split
    · exact dmRead_snd _ _ _ _
    · split
      · exact ngReadReg_snd _ _ _ _
      · rename_i h3 h4
        simp only [appServed, Bool.and_eq_false_iff] at h
        simp at h h3 h4
        simp at h1'
        rcases h with (h | h) | h
        · have := h1' h.1; omega
        · simp [h] at h3
        · simp [h] at h4

theorem appServed_run {c : Ctx} {page : U16} {addr : U8} (h : appServed c page addr = true) (w : W) :
    Core.readRegister c page addr w =
      (c.appRead w.out.length w.ps page addr,
        { w with out := w.out ++ [.appRead page addr (c.appRead w.out.length w.ps page addr)] }) := by
  simp only [appServed, Bool.and_eq_true, Bool.not_eq_true', decide_eq_false_iff_not, Bool.and_eq_false_iff] at h
  obtain ⟨⟨h1, h2⟩, h3⟩ := h
  unfold Core.readRegister
  rw [if_neg (fun h => h1 ⟨h.1, h.2.1⟩), if_neg (by rintro ⟨a, b⟩; simp [a, b] at h2),
    if_neg (by rintro ⟨a, b⟩; simp [a, b] at h3)]
  rfl

/-- States which look the same to register reads, except for the alarm status. -/
structure Same (w w' : W) : Prop where
  nick : w'.v.nick = w.v.nick
  page : w'.v.page = w.v.page
  ps : w'.ps = w.ps
  idx : w'.dm = w.dm

theorem Same.refl (w : W) : Same w w := ⟨rfl, rfl, rfl, rfl⟩
theorem Same.trans {w w' w'' : W} (h : Same w w') (h' : Same w' w'') : Same w w'' :=
  ⟨h'.nick.trans h.nick, h'.page.trans h.page, h'.ps.trans h.ps, h'.idx.trans h.idx⟩

theorem readIdx_same {w w' : W} (h : Same w w') (a s i : Nat) : (Ps.readIdx a s i w').1 = (Ps.readIdx a s i w).1 := by
  unfold Ps.readIdx; simp only [ite_run, psRead8_run, h.ps]; split <;> rfl

set_option maxRecDepth 4000 in
theorem readVscpRegister_same {c : Ctx} {addr : U8} {w w' : W} (h : Same w w') (ha : addr = 0x80 → w'.v.alarm = w.v.alarm) :
    (Core.readVscpRegister c addr w').1 = (Core.readVscpRegister c addr w).1 := by
  by_cases e : addr = 0x80
  · subst e; exact ha rfl
  · have h' : ¬ addr.toNat = 0x80 := fun e' => e (BitVec.eq_of_toNat_eq e')
    have hmap : ∀ (f : U8 → U8) (a s i : Nat), ((f <$> Ps.readIdx a s i : M U8) w').1 = ((f <$> Ps.readIdx a s i : M U8) w).1 := by
      intro f a s i; rw [map_run, map_run]; simp only [readIdx_same h]
    unfold Core.readVscpRegister DevData.getManu DevData.getManuSub DevData.getFam DevData.getType DevData.getGuid
      DevData.getMdf
    rw [if_neg h']
    repeat' refine ite_fst ?_ ?_
    all_goals first
      | rfl
      | exact readIdx_same h _ _ _
      | exact hmap _ _ _ _
      | simp only [bind_run, get_run, pure_run, h.page, h.nick]
      | (rw [psRead8_run, psRead8_run, h.ps])
      | (unfold Ps.readFlags; rw [psRead8_run, psRead8_run, h.ps])

theorem readRegister_same {c : Ctx} {page : U16} {addr : U8} (hn : appServed c page addr = false) {w w' : W} (h : Same w w')
    (ha : page = 0 → addr = 0x80 → w'.v.alarm = w.v.alarm) :
    (Core.readRegister c page addr w').1 = (Core.readRegister c page addr w).1 := by
  unfold Core.readRegister
  simp only [ite_run]
  by_cases h1 : page = 0 ∧ 0x80 ≤ addr.toNat ∧ addr.toNat ≤ 0xFF
  · rw [if_pos h1, if_pos h1]; exact readVscpRegister_same h (ha h1.1)
  · rw [if_neg h1, if_neg h1]
    split
    · unfold Dm.readRegister Dm.readRegisterPaged Dm.readRegisterStd Ps.readDm
      simp only [ite_run, bind_run, get_run, pure_run, h.idx]
      split
      · repeat' split
        all_goals first | rfl | exact readIdx_same h _ _ _
      · cases Dm.calculateMatrixIndex c page addr with
        | some r => exact readIdx_same h _ _ _
        | none => rfl
    · split
      · unfold DmNg.readRegister Ps.readDmNg
        simp only [ite_run, pure_run]
        split
        · exact readIdx_same h _ _ _
        · rfl
      · rename_i h3 h4
        exfalso
        have h1' : ¬(page = 0 ∧ 0x80 ≤ addr.toNat) := fun h => h1 ⟨h.1, h.2, by have := addr.isLt; omega⟩
        simp only [appServed, Bool.and_eq_false_iff] at hn
        simp at hn h3 h4
        simp at h1'
        rcases hn with (hn | hn) | hn
        · have := h1' hn.1; omega
        · simp [hn] at h3
        · simp [hn] at h4

/-! ### Requests -/

theorem Spec.Request.at {m : Msg} {typ : U8} {l : List U8} (h : Request m typ l) (i : Nat) (hi : i < l.length)
    (h8 : l.length ≤ 8) : m.data[i] = l[i] := by
  have := congrArg (fun l => l[i]?) h.data
  simp only [List.getElem?_take_of_lt hi] at this
  rw [List.getElem?_eq_getElem hi, List.getElem?_eq_getElem (by simp; omega)] at this
  simpa using this

theorem dispatch_2 (c : Ctx) (m : Msg) (h : m.typ = 2) : Core.handleProtocolClassType c m = Core.handleNewNodeOnline c m := by
  unfold Core.handleProtocolClassType; rw [h]; rfl
theorem dispatch_3 (c : Ctx) (m : Msg) (h : m.typ = 3) : Core.handleProtocolClassType c m = Core.handleProbeAck c m := by
  unfold Core.handleProtocolClassType; rw [h]; rfl
theorem dispatch_6 (c : Ctx) (m : Msg) (h : m.typ = 6) : Core.handleProtocolClassType c m = Core.handleSetNicknameId c m := by
  unfold Core.handleProtocolClassType; rw [h]; rfl
theorem dispatch_8 (c : Ctx) (m : Msg) (h : m.typ = 8) : Core.handleProtocolClassType c m = Core.handleDropNicknameId c m := by
  unfold Core.handleProtocolClassType; rw [h]; rfl
theorem dispatch_9 (c : Ctx) (m : Msg) (h : m.typ = 9) : Core.handleProtocolClassType c m = Core.handleReadRegister c m := by
  unfold Core.handleProtocolClassType; rw [h]; rfl
theorem dispatch_11 (c : Ctx) (m : Msg) (h : m.typ = 11) : Core.handleProtocolClassType c m = Core.handleWriteRegister c m := by
  unfold Core.handleProtocolClassType; rw [h]; rfl
theorem dispatch_12 (c : Ctx) (m : Msg) (h : m.typ = 12) : Core.handleProtocolClassType c m = Core.handleEnterBootLoaderMode c m := by
  unfold Core.handleProtocolClassType; rw [h]; rfl
theorem dispatch_23 (c : Ctx) (m : Msg) (h : m.typ = 23) : Core.handleProtocolClassType c m = Core.handleGuidDropNickname c m := by
  unfold Core.handleProtocolClassType; rw [h]; rfl
theorem dispatch_24 (c : Ctx) (m : Msg) (h : m.typ = 24) : Core.handleProtocolClassType c m = Core.handlePageRead c m := by
  unfold Core.handleProtocolClassType; rw [h]; rfl
theorem dispatch_25 (c : Ctx) (m : Msg) (h : m.typ = 25) : Core.handleProtocolClassType c m = Core.handlePageWrite c m := by
  unfold Core.handleProtocolClassType; rw [h]; rfl
theorem dispatch_29 (c : Ctx) (m : Msg) (h : m.typ = 29) : Core.handleProtocolClassType c m = Core.handleIncrementRegister c m := by
  unfold Core.handleProtocolClassType; rw [h]; rfl
theorem dispatch_30 (c : Ctx) (m : Msg) (h : m.typ = 30) : Core.handleProtocolClassType c m = Core.handleDecrementRegister c m := by
  unfold Core.handleProtocolClassType; rw [h]; rfl
theorem dispatch_31 (c : Ctx) (m : Msg) (h : m.typ = 31) : Core.handleProtocolClassType c m = Core.handleWhoIsThere c m := by
  unfold Core.handleProtocolClassType; rw [h]; rfl
theorem dispatch_33 (c : Ctx) (m : Msg) (h : m.typ = 33) : Core.handleProtocolClassType c m = Core.handleGetDecisionMatrixInfo c m := by
  unfold Core.handleProtocolClassType; rw [h]; rfl
theorem dispatch_37 (c : Ctx) (m : Msg) (h : m.typ = 37) : Core.handleProtocolClassType c m = Core.handleExtendedPageReadRegister c m := by
  unfold Core.handleProtocolClassType; rw [h]; rfl
theorem dispatch_38 (c : Ctx) (m : Msg) (h : m.typ = 38) : Core.handleProtocolClassType c m = Core.handleExtendedPageWriteRegister c m := by
  unfold Core.handleProtocolClassType; rw [h]; rfl
theorem dispatch_1 (c : Ctx) (m : Msg) (h : m.typ = 1) :
    Core.handleProtocolClassType c m = whenM c.hbSegment (Core.handleHeartbeat c m) := by
  unfold Core.handleProtocolClassType; rw [h]; rfl

theorem handle_read (c : Ctx) (w : W) (m : Msg) (addr : U8) (hm : Request m 9 [w.v.nick, addr]) :
    (Core.handleProtocolClassType c m w).2 =
      sent c (event c w.v.nick 3 10 [addr, (Core.readRegister c 0 addr w).1]) (Core.readRegister c 0 addr w).2 := by
  have h0 : m.data[0] = w.v.nick := hm.at 0 (by simp) (by simp)
  have h1 : m.data[1] = addr := hm.at 1 (by simp) (by simp)
  have hs : m.size = 2 := hm.size
  have hv : (Core.readRegister c 0 addr w).2.v.nick = w.v.nick := by
    cases h : appServed c 0 addr with
    | false => rw [not_appServed h, alarmRead]; split <;> rfl
    | true => rw [appServed_run h]
  rw [dispatch_9 c m hm.typ]
  unfold Core.handleReadRegister
  simp only [bind_run, get_run, whenM_run, h0, h1, hs]
  rw [if_pos ⟨trivial, trivial⟩, Core.sendRegisterReadWriteRsp, txVoid_run _ _ _ _ (by simp), frame, hv]

end Vscp
