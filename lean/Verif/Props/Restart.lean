/-
Property theorems: restart (C99).
-/
import Verif.Props.Registers
import Verif.Props.Probe
import Verif.Spec.Restart

namespace Vscp.RestartProps
open M Vscp.Spec Vscp.Safety Vscp.Registers Transport

theorem readIdx_eq {w w' : W} (hp : w'.ps = w.ps) (base size i : Nat) : (Ps.readIdx base size i w').1 = (Ps.readIdx base size i w).1 := by
  unfold Ps.readIdx
  simp only [ite_run, psRead8_run, pure_run, hp]
  split <;> rfl

/-- The value of a VSCP register depends on the memory, the nickname, the alarm status and the page select. -/
theorem value_eq {c : Ctx} {w w' : W} (hp : w'.ps = w.ps) (hn : w'.v.nick = w.v.nick) (r : Reg)
    (h1 : r ≠ .alarmStatus) (h2 : r ≠ .pageSelectMsb) (h3 : r ≠ .pageSelectLsb) : r.value c w' = r.value c w := by
  cases r <;> simp only [Reg.value, hn, hp] <;>
    first
    | rfl
    | exact absurd rfl h1
    | exact absurd rfl h2
    | exact absurd rfl h3
    | (simp only [DevData.getManu, DevData.getManuSub, DevData.getFam, DevData.getType, DevData.getGuid, DevData.getMdf, ite_run,
        Ps.readManu, Ps.readManuSub, Ps.readFam, Ps.readType, Ps.readGuid, Ps.readMdf, map_run, pure_run, apply_ite Prod.fst,
        readIdx_eq hp])

theorem map_volatile : ∀ a : Fin 128, (a.val = 0x00 ∨ a.val = 0x12 ∨ a.val = 0x13) ∨
    (match registerMap[a.val]? with
      | some .alarmStatus | some .pageSelectMsb | some .pageSelectLsb => false
      | _ => true) = true := by decide +kernel

/-- The value of a register which is not volatile. -/
theorem read_eq {c : Ctx} {w w' : W} (hq : AppKeeps c.toEnv) (hp : w'.ps = w.ps) (hn : w'.v.nick = w.v.nick) (page : U16) (addr : U8)
    (hv : ¬Volatile c.toCfg page addr) : (Core.readRegister c page addr w').1 = (Core.readRegister c page addr w).1 := by
  by_cases h0 : page = 0 ∧ 0x80 ≤ addr.toNat
  · obtain ⟨rfl, ha⟩ := h0
    have hlt := addr.isLt
    have hl := C16_register_map_complete
    have hr : addr.toNat - 0x80 < registerMap.length := by omega
    have e : addr = BitVec.ofNat 8 (0x80 + (addr.toNat - 0x80)) := by
      apply BitVec.eq_of_toNat_eq
      simp only [BitVec.toNat_ofNat]
      omega
    have hne : addr ≠ 0x80 ∧ addr ≠ 0x92 ∧ addr ≠ 0x93 :=
      ⟨fun h => hv ⟨rfl, .inl h⟩, fun h => hv ⟨rfl, .inr (.inl h)⟩, fun h => hv ⟨rfl, .inr (.inr (.inl h))⟩⟩
    have hne' : addr.toNat ≠ 0x80 ∧ addr.toNat ≠ 0x92 ∧ addr.toNat ≠ 0x93 :=
      ⟨fun h => hne.1 (BitVec.eq_of_toNat_eq h), fun h => hne.2.1 (BitVec.eq_of_toNat_eq h), fun h => hne.2.2 (BitVec.eq_of_toNat_eq h)⟩
    have hm := map_volatile ⟨addr.toNat - 0x80, by omega⟩
    rw [or_iff_right (by dsimp only; omega)] at hm
    dsimp only at hm
    rw [List.getElem?_eq_getElem hr] at hm
    rw [e, C16_register_map c w' _ hr, C16_register_map c w _ hr]
    apply value_eq hp hn
    · intro h; rw [h] at hm; cases hm
    · intro h; rw [h] at hm; cases hm
    · intro h; rw [h] at hm; cases hm
  · unfold Core.readRegister
    rw [if_neg (fun h => h0 ⟨h.1, h.2.1⟩)]
    by_cases hd : c.dm = true ∧ Dm.isDecisionMatrix c.toCfg page addr = true
    · rw [if_pos hd]
      unfold Dm.readRegister
      by_cases hpg : c.dmPaged = true
      · exfalso
        have h := hd.2
        unfold Dm.isDecisionMatrix Dm.isDecisionMatrixPaged at h
        rw [if_pos hpg] at h
        have h := of_decide_eq_true h
        exact hv ⟨h.1, .inr (.inr (.inr ⟨hd.1, hpg, h.2⟩))⟩
      · rw [if_neg hpg]
        unfold Dm.readRegisterStd
        cases Dm.calculateMatrixIndex c.toCfg page addr
        rotate_left
        · exact readIdx_eq hp ..
        · rfl
    · rw [if_neg hd]
      by_cases hg : c.dmNg = true ∧ DmNg.isDecisionMatrix c.toCfg page addr = true
      · rw [if_pos hg]
        unfold DmNg.readRegister
        simp only [ite_run]
        split
        · exact readIdx_eq hp ..
        · rfl
      · rw [if_neg hg]
        show c.appRead w'.out.length w'.ps page addr = c.appRead w.out.length w.ps page addr
        rw [hp]
        exact hq ..

theorem memAfter_snoc (ps : Nat → U8) (t : List Out) (o : Out) (a : Nat) : memAfter ps (t ++ [o]) a =
    (match o with | .psW x b => if a = x then b else memAfter ps t a | _ => memAfter ps t a) := by
  induction t generalizing ps with
  | nil => cases o <;> rfl
  | cons p t ih => cases p <;> exact ih _

theorem last_snoc (ps : Nat → U8) (t : List Out) (o : Out) (a : Nat) : lastWritten ps a (t ++ [o]) =
    (match o with | .psW x b => if x = a then b else lastWritten ps a t | _ => lastWritten ps a t) := by
  unfold lastWritten
  rw [List.filterMap_append]
  cases o <;> simp
  split <;> simp

/-- Each place of the memory has the byte written last. -/
theorem memAfter_last (ps : Nat → U8) (t : List Out) (a : Nat) : memAfter ps t a = lastWritten ps a t := by
  induction t using snoc_induction with
  | nil => rfl
  | snoc t o ih =>
    rw [memAfter_snoc, last_snoc, ih]
    cases o <;> try rfl
    simp only [eq_comm]

theorem valid_ps {c : Cfg} (ps : Nat → U8) (hv : validStartUp (ps (Ps.addrFlags c)) = true) : psValid c ps = true := by
  unfold psValid
  generalize ps (Ps.addrFlags c) = x at hv
  rw [decide_eq_true_iff]
  revert hv
  revert x
  decide +kernel

/-- A node which starts with valid control flags. -/
theorem start {c : Ctx} (ok : Tmr → Bool) (ps : Nat → U8) (hv : validStartUp (ps (Ps.addrFlags c)) = true) :
    (node c ok ps []).ps = ps ∧ (node c ok ps []).v.nick = ps (Ps.addrNickname c) ∧ (node c ok ps []).v.alarm = 0 ∧
      (node c ok ps []).v.page = 0 ∧ (node c ok ps []).tm.ok = ok ∧ (timersGood c ok = true → (node c ok ps []).v.st = .startup) ∧
      (timersGood c ok = false → (node c ok ps []).v.st = .error) := by
  obtain ⟨w1, h1, h2⟩ := init_run c ok (powerUp ps)
  obtain ⟨r, hr⟩ := h1.v
  have hw : node c ok ps [] = (whenM (timersGood c ok = false) (Core.changeToStateError c) w1).2 := by
    show (Core.init c ok (powerUp ps)).2 = _
    have hp : psValid c w1.ps = true := by
      rw [h1.ps]
      exact valid_ps _ hv
    rw [h2, hp]
    rfl
  rw [hw, whenM_run]
  by_cases hg : timersGood c ok = true
  · rw [if_neg (by simp [hg])]
    dsimp only
    rw [h1.ps, hr, h1.tm]
    exact ⟨rfl, rfl, rfl, rfl, rfl, fun _ => rfl, fun h => absurd (hg.symm.trans h) (by decide)⟩
  · rw [if_pos (by simpa using hg)]
    simp only [Core.changeToStateError, bind_run, get_run, whenM_run, emit_run, setV_run]
    rw [if_pos (by rw [hr]; exact fun h => (by cases h))]
    have key : ∀ w2 : W, w2.ps = w1.ps → w2.v = { w1.v with st := .error } → w2.tm = w1.tm →
        w2.ps = ps ∧ w2.v.nick = ps (Ps.addrNickname c) ∧ w2.v.alarm = 0 ∧ w2.v.page = 0 ∧ w2.tm.ok = ok ∧
        (timersGood c ok = true → w2.v.st = .startup) ∧ (timersGood c ok = false → w2.v.st = .error) := by
      intro w2 e1 e2 e3
      rw [e1, e2, e3, h1.ps, hr, h1.tm]
      exact ⟨rfl, rfl, rfl, rfl, rfl, fun h => absurd h hg, fun _ => rfl⟩
    split
    · exact key _ rfl rfl rfl
    · exact key _ rfl rfl rfl

theorem memAfter_append (ps : Nat → U8) (t t' : List Out) : memAfter ps (t ++ t') = memAfter (memAfter ps t) t' := by
  induction t generalizing ps with
  | nil => rfl
  | cons p t ih => cases p <;> exact ih _

theorem memAfter_keeps (ps : Nat → U8) (t : List Out) (a : Nat) (h : ∀ b, .psW a b ∉ t) : memAfter ps t a = ps a := by
  rw [memAfter_last]
  unfold lastWritten
  rw [List.filterMap_eq_nil_iff.mpr ?_]
  · rfl
  · intro o ho
    cases o <;> try rfl
    rename_i x b
    by_cases hx : x = a
    · subst hx; exact absurd ho (h b)
    · exact if_neg hx

/-- C99: power loss at any point of any history, also within a call: `mid` are the calls between some state and the loss.  After the
restart each byte of the memory which was not written in between is the one of that state, provided that the start-up control in
the stored flags is valid. -/
theorem C99_power_loss {c : Ctx} (h : GoodCfg c) (ok ok' : Tmr → Bool) (ps : Nat → U8) (ops ops' : List Op)
    (hops : ∀ op ∈ ops, op.Ok) (mid post : List Out) (_ht : (node c ok ps (ops ++ ops')).out = (node c ok ps ops).out ++ mid ++ post)
    (hv : validStartUp (memAfter ps ((node c ok ps ops).out ++ mid) (Ps.addrFlags c)) = true) (a : Nat) (ha : ∀ b, .psW a b ∉ mid) :
    let w := node c ok' (memAfter ps ((node c ok ps ops).out ++ mid)) []
    w.ps a = (node c ok ps ops).ps a ∧ w.v.nick = lastWritten ps (Ps.addrNickname c) ((node c ok ps ops).out ++ mid) := by
  intro w
  obtain ⟨h1, h2, -⟩ := start (c := c) ok' _ hv
  refine ⟨?_, by rw [h2]; exact memAfter_last ..⟩
  rw [h1, memAfter_append, memAfter_keeps _ _ _ ha, node_ps h ok ps ops hops]

/-- C99: power off and on between two calls keeps every register but the volatile ones. -/
theorem C99_registers {c : Ctx} (h : GoodCfg c) (hq : AppKeeps c.toEnv) (ok ok' : Tmr → Bool) (ps : Nat → U8) (ops : List Op)
    (hops : ∀ op ∈ ops, op.Ok) (hv : validStartUp ((node c ok ps ops).ps (Ps.addrFlags c)) = true) (page : U16) (addr : U8)
    (hr : ¬Volatile c.toCfg page addr) :
    (Core.readRegister c page addr (node c ok' (node c ok ps ops).ps [])).1 = (Core.readRegister c page addr (node c ok ps ops)).1 := by
  obtain ⟨h1, h2, -⟩ := start (c := c) ok' _ hv
  exact read_eq hq h1 (h2.trans (C34_nickname_stored h ok ps ops hops).symm) page addr hr

/-- C99: the volatile registers are those of a fresh node. -/
theorem C99_volatile (c : Ctx) (ok : Tmr → Bool) (ps : Nat → U8) (hv : validStartUp (ps (Ps.addrFlags c)) = true) :
    (Core.readRegister c 0 0x80 (node c ok ps [])).1 = 0 ∧ (Core.readRegister c 0 0x92 (node c ok ps [])).1 = 0 ∧
      (Core.readRegister c 0 0x93 (node c ok ps [])).1 = 0 := by
  obtain ⟨-, -, h3, h4, -⟩ := start (c := c) ok ps hv
  refine ⟨h3, ?_, ?_⟩
  · show wordMsb (node c ok ps []).v.page = 0
    rw [h4]; rfl
  · show wordLsb (node c ok ps []).v.page = 0
    rw [h4]; rfl

/-- C99: a node which had a nickname is active again with the first call of `vscp_core_process`, under the nickname it had, and whatever is
received meanwhile: there is no discovery.  It announces itself by one frame, and nothing is written to the memory. -/
theorem C99_active {c : Ctx} (h : GoodCfg c) (ok ok' : Tmr → Bool) (hok : timersGood c ok' = true) (ps : Nat → U8) (ops : List Op)
    (hops : ∀ op ∈ ops, op.Ok) (hv : validStartUp ((node c ok ps ops).ps (Ps.addrFlags c)) = true) (hn : (node c ok ps ops).v.nick ≠ 0xFF)
    (rx : Option Msg) :
    let w := node c ok' (node c ok ps ops).ps []
    let w' := node c ok' (node c ok ps ops).ps [.process rx]
    w'.v.st = .active ∧ w'.v.nick = (node c ok ps ops).v.nick ∧ w'.ps = (node c ok ps ops).ps ∧
      ∃ r, w'.out = w.out ++ [.lamp .on, .tx (event c (node c ok ps ops).v.nick 0 2 [(node c ok ps ops).v.nick]) r] := by
  intro w w'
  obtain ⟨h1, h2, -, -, -, h5, -⟩ := start (c := c) ok' _ hv
  have hnick : w.v.nick = (node c ok ps ops).v.nick := h2.trans (C34_nickname_stored h ok ps ops hops).symm
  have e : w' = (Core.process c rx w).2 := rfl
  rw [process_startup (h5 hok)] at e
  generalize hw1 : (preProcess c rx w).2 = w1 at e
  have p1 : w1.v.nick = w.v.nick := by rw [← hw1]; exact pre_same c rx w .nick (by decide)
  have p2 : w1.v.st = .startup := by rw [← hw1]; exact (pre_same c rx w .st (by decide)).trans (h5 hok)
  have p3 : w1.ps = w.ps := by rw [← hw1]; exact pre_same c rx w .ps (by decide)
  have p4 : w1.out = w.out := by rw [← hw1]; exact pre_out c rx w
  have hne : w1.v.nick ≠ 0xFF := by rw [p1, hnick]; exact hn
  have e2 : w' = (Core.changeToStateActive c w1).2 := by
    rw [e]
    unfold Core.stateStartup
    rw [bind_run, get_run]
    dsimp only
    rw [ite_run, if_neg (c := w1.v.nick = Core.NOT_INIT) hne]
  have p3' : w1.ps = (node c ok ps ops).ps := p3.trans h1
  have p1' : w1.v.nick = (node c ok ps ops).v.nick := p1.trans hnick
  refine ⟨by rw [e2]; exact Probe.active_st c w1, ?_⟩
  rw [e2, ← p1', ← p3', ← p4]
  unfold Core.changeToStateActive
  simp only [bind_run, get_run, whenM_run, if_pos (show w1.v.st ≠ .active by rw [p2]; exact fun h => (by cases h)), emit_run, setV_run]
  rw [txVoid_run _ _ _ _ (by simp)]
  split
  · rw [timerStart_run]
    dsimp only
    split
    · exact ⟨by simp, by simp, c.txOk (w1.out ++ [Out.lamp Lamp.on]).length, by simp⟩
    · exact ⟨by simp, by simp, c.txOk (w1.out ++ [Out.lamp Lamp.on]).length, by simp⟩
  · exact ⟨by simp, by simp, c.txOk (w1.out ++ [Out.lamp Lamp.on]).length, by simp⟩

/-! ### Examples -/

/-- An application which answers with a byte of the memory. -/
def exC : Ctx := { Ex.ctx with appRead := fun _ ps _ a => ps a.toNat }

/-- Nickname 8 is assigned, a byte of the user id and the alarm status are changed. -/
def exOps : List Op := [.process none, .process (some (Ex.msg 0 6 0 [5, 8])), .process (some (Ex.msg 0 11 9 [8, 0x85, 0x77])), .setAlarm 4]

example : (∀ op ∈ exOps, op.Ok) ∧ AppKeeps exC.toEnv ∧ timersGood exC.toCfg allOk = true :=
  ⟨by simp only [exOps, List.forall_mem_cons, List.not_mem_nil, false_implies, implies_true, and_true, Op.Ok]; decide,
    fun _ _ _ _ _ => rfl, by decide⟩

example : GoodCfg exC := ⟨by decide, by decide, by decide⟩

/-- Before and after the power cycle. -/
example : let w := node exC allOk (mem 0x60) exOps
    let w' := node exC allOk w.ps [.process none]
    validStartUp (w.ps (Ps.addrFlags exC.toCfg)) = true ∧ w.v.nick = 8 ∧ w'.v.nick = 8 ∧ w'.v.st = .active ∧
    (Core.readRegister exC 0 0x85 w).1 = 0x77 ∧ (Core.readRegister exC 0 0x85 w').1 = 0x77 ∧
    (Core.readRegister exC 0 0x80 w).1 = 4 ∧ (Core.readRegister exC 0 0x80 w').1 = 0 := by decide +kernel

/-- Power loss behind the byte of the user id was stored, but before this was confirmed. -/
example : ∃ mid post, (node exC allOk (mem 0x60) (exOps.take 2 ++ exOps.drop 2)).out =
      (node exC allOk (mem 0x60) (exOps.take 2)).out ++ mid ++ post ∧ mid = [.psW 5 0x77] ∧ post.length = 1 ∧
    validStartUp (memAfter (mem 0x60) ((node exC allOk (mem 0x60) (exOps.take 2)).out ++ mid) (Ps.addrFlags exC.toCfg)) = true := by
  refine ⟨[.psW 5 0x77], [.tx (event exC 8 3 10 [0x85, 0x77]) true], ?_, rfl, rfl, ?_⟩ <;> decide +kernel

end Vscp.RestartProps
