/-
Property C84, continued: the application gets control exactly in its callbacks, register functions and state notifications, once in each of them.
-/
import Verif.Props.CalloutOnce
import Verif.Props.CalloutReg

namespace Vscp.Callout
open Vscp.Spec Vscp.Spec.Dm M Transport Vscp.Safety

/-- A write to a register which is not one of the application, outside of the VSCP registers. -/
theorem writeOuter_own {c : Ctx} {bad : Prop} {page : U16} {addr value : U8} (hout : ¬(page = 0 ∧ 0x80 ≤ addr.toNat ∧ addr.toNat ≤ 0xFF))
    (happ : Core.isAppRegister c page addr = false) : Foot c bad [.dmW, .dmIdx, .ngW] (Core.writeRegister c page addr value) := by
  unfold Core.writeRegister
  rw [if_neg hout]
  intro w
  rw [bind_run]
  have hp : Core.getRegAppWriteProtect c w = ((w.ps (Ps.addrFlags c) >>> 5) &&& 0x01, w) := rfl
  rw [hp]
  by_cases hwe : (w.ps (Ps.addrFlags c) >>> 5) &&& 0x01 ≠ 0
  · have hwe' : writeEnabled c w := hwe
    rw [if_pos hwe, bind_run]
    refine Steps.trans ?_ (.refl _)
    have hidx : ∀ (a s i : Nat) (v : U8) (act : Act), act ∈ [Act.dmW, .dmIdx, .ngW] →
        (i < s → Step c bad act w (putPs (a + i) v w)) →
        Steps c bad [.dmW, .dmIdx, .ngW] w ((do Ps.writeIdx a s i v; Ps.readIdx a s i : M U8) w).2 := by
      intro a s i v act hact hst
      rw [bind_run]
      refine Steps.trans ?_ (Foot.readIdx a s i _)
      unfold Ps.writeIdx
      by_cases hi : i < s
      · rw [if_pos hi]; exact .one hact (hst hi)
      · rw [if_neg hi]; exact .refl _
    by_cases hd : c.dm ∧ Dm.isDecisionMatrix c page addr
    · rw [if_pos hd]
      unfold Dm.writeRegister
      by_cases hpg : c.dmPaged = true
      · rw [if_pos hpg]
        unfold Dm.writeRegisterPaged
        by_cases hp0 : page = 0
        · rw [if_pos hp0]
          by_cases ha : addr = 0x7E
          · rw [if_pos ha, bind_run]
            refine Steps.trans ?_ (.refl _)
            rw [whenM_run]
            split
            · exact .one (a := .dmIdx) (by decide) ⟨hwe', value, rfl⟩
            · exact .refl _
          · rw [if_neg ha]
            by_cases ha2 : addr = 0x7F
            · rw [if_pos ha2, bind_run, get_run]
              by_cases hr : Dm.rows c ≤ w.dm.idx.toNat / 8
              · rw [if_pos hr]; exact .refl _
              · rw [if_neg hr, bind_run]
                refine Steps.trans ?_ (.refl _)
                unfold Ps.writeDm Ps.writeIdx
                split
                · rename_i hi
                  exact .one (a := .dmW) (by decide) ⟨hwe', _, _, hi, rfl⟩
                · exact .refl _
            · rw [if_neg ha2]; exact .refl _
        · rw [if_neg hp0]; exact .refl _
      · rw [if_neg hpg]
        unfold Dm.writeRegisterStd
        cases Dm.calculateMatrixIndex c.toCfg page addr with
        | none => exact .refl _
        | some p => exact hidx _ _ _ _ .dmW (by decide) fun hi => ⟨hwe', _, _, hi, rfl⟩
    · rw [if_neg hd]
      by_cases hn : c.dmNg ∧ DmNg.isDecisionMatrix c page addr
      · rw [if_pos hn]
        unfold DmNg.writeRegister
        by_cases hp : c.ngPage ≤ page.toNat
        · rw [if_pos hp]
          exact hidx _ _ _ _ .ngW (by decide) fun hi => ⟨hwe', _, _, hi, rfl⟩
        · rw [if_neg hp]; exact .refl _
      · exfalso
        unfold Core.isAppRegister at happ
        simp only [Bool.and_eq_false_iff, Bool.not_eq_false', decide_eq_true_eq, Bool.and_eq_true] at happ
        rcases happ with (h | h) | h
        · exact hout h
        · exact hd h
        · exact hn h
  · rw [if_neg hwe]; exact .refl _

theorem isApp_served {c : Ctx} {page : U16} {addr : U8} (h : Core.isAppRegister c page addr = true) : appServed c page addr = true := by
  rw [appServed_iff]
  unfold Core.isAppRegister at h
  simp only [Bool.and_eq_true, Bool.not_eq_true', decide_eq_false_iff_not, Bool.and_eq_false_iff] at h
  have := addr.isLt
  refine ⟨fun e => h.1.1 ⟨e.1, e.2, by omega⟩, fun e => ?_, fun e => ?_⟩
  · rcases h.1.2 with h | h <;> simp [h] at e
  · rcases h.2 with h | h <;> simp [h] at e

theorem ans_call {x : Bool} {e : Msg} {w w' : W} {o : Out} {zs : List Out} {r : Bool} (ho : isCallout x o = true) (hs : stores o zs)
    (h : w'.out = ((w.out ++ [o]) ++ zs) ++ [.tx e r]) : Ans x e w w' :=
  ⟨o :: (zs ++ [.tx e r]), by rw [h]; simp, .call ho hs .nil⟩

namespace FootA
variable {c : Ctx} {e : Msg} (he : e.hard ≠ c.hardCoded)
include he

/-- A frame of the framework. -/
theorem write {x : Bool} {m : Msg} (hm : m.hard = c.hardCoded) : FootA x e (writeMessage c m) := by
  intro w
  obtain ⟨tp, ub, t, h, hc⟩ := writeMessage_frame c m w
  rw [h]
  refine ⟨t, rfl, plain_list t fun o ho => ?_⟩
  rcases hc with rfl | ⟨rfl, -⟩
  · rw [List.mem_singleton.mp ho]
    refine ⟨rfl, fun r h => ?_⟩
    injection h with h
    exact he (by rw [← h, hm])
  · cases ho

theorem txFrom {x : Bool} {nick prio typ : U8} {l : List U8} : FootA x e (Core.txFrom c nick prio typ l) := by
  intro w
  exact FootA.write he (m := ⟨prio, CLASS_PROTOCOL, typ, nick, c.hardCoded, BitVec.ofNat 8 l.length, bytes8 l⟩) rfl w

variable (h8 : e.size.toNat ≤ 8)
include h8

theorem readRegister {page : U16} {addr : U8} : FootA true e (Core.readRegisterR c (fun _ => [.sendEvent e]) page addr) := by
  intro w
  unfold Core.readRegisterR
  cases ha : Core.isAppRegister c page addr with
  | false =>
    rw [bind_run]
    refine Ans.trans (w' := (Core.readRegister c page addr w).2) ?_ ⟨[], by simp [pure_run], .nil⟩
    refine plain_steps he (bad := True) (A := [.alarm]) rfl ?_
    revert w
    show Foot c True [.alarm] (Core.readRegister c page addr)
    unfold Core.readRegister
    unfold Core.isAppRegister at ha
    simp only [Bool.and_eq_false_iff, Bool.not_eq_false', decide_eq_true_eq, Bool.and_eq_true] at ha
    refine .ite (fun _ => .readVscpRegister (by decide)) fun h1 => .ite (fun _ => .dmRead) fun h2 => .ite (fun _ => .ngRead) fun h3 => ?_
    rcases ha with (h | h) | h
    · exact absurd h h1
    · exact absurd h h2
    · exact absurd h h3
  | true =>
    rw [bind_run, appServed_run (isApp_served ha)]
    have := FootA.call (x := true) (e := e) h8 (o := .appRead page addr (c.appRead w.out.length w.ps page addr)) rfl c w
    exact this

theorem writeRegister {page : U16} {addr v : U8} : FootA true e (Core.writeRegisterR c (fun _ => [.sendEvent e]) page addr v) := by
  intro w
  unfold Core.writeRegisterR
  cases ha : Core.isAppRegister c page addr with
  | false =>
    rw [bind_run]
    refine Ans.trans (w' := (Core.writeRegister c page addr v w).2) ?_ ⟨[], by simp [pure_run], .nil⟩
    refine plain_steps he (bad := True) (A := [.flags, .user, .page, .tm .reg162, .restore, .dmW, .dmIdx, .ngW]) rfl ?_
    by_cases hout : page = 0 ∧ 0x80 ≤ addr.toNat ∧ addr.toNat ≤ 0xFF
    · have hw : Core.writeRegister c page addr v w = Core.writeVscpRegister c addr v w := by
        unfold Core.writeRegister; rw [if_pos hout]
      rw [hw]
      exact Foot.writeVscpRegister (by decide) w
    · exact (writeOuter_own hout ha w).mono (by decide)
  | true =>
    have hs := isApp_served ha
    rw [bind_run]
    cases hacc : accepted c w page addr with
    | false => rw [writeRegister_rejected hacc]; exact ⟨[], by simp [bind_run, pure_run], .nil⟩
    | true =>
      rw [writeRegister_app hacc hs]
      show Ans true e w (writeMessage c e (writeAll (Core.appStores c w.out.length page addr v)
          { w with out := w.out ++ [.appWrite page addr v (c.appWrite w.out.length w.ps page addr v)] })).2
      obtain ⟨tp, ub, t, h, hc⟩ := writeMessage_frame c e (writeAll (Core.appStores c w.out.length page addr v)
          { w with out := w.out ++ [.appWrite page addr v (c.appWrite w.out.length w.ps page addr v)] })
      rw [h]
      rcases hc with rfl | ⟨-, -, hc⟩
      · refine ans_call (o := .appWrite page addr v (c.appWrite w.out.length w.ps page addr v))
          (zs := traceOf (Core.appStores c w.out.length page addr v)) rfl (fun z hz => ?_) rfl
        obtain ⟨y, -, rfl⟩ := List.mem_map.mp hz
        exact ⟨_, _, rfl⟩
      · omega

omit h8 in
theorem rsp {addr v : U8} : FootA true e (Core.sendRegisterReadWriteRsp c addr v) :=
  .of he (A := [.tx]) (.sendRegisterReadWriteRsp (by decide)) rfl

theorem pageReadLoop {nick addr : U8} (n index : Nat) (acc : List U8) :
    FootA true e (Core.pageReadLoopR c (fun _ => [.sendEvent e]) nick addr n index acc) := by
  induction n generalizing index acc with
  | zero => exact .pure _
  | succ n ih =>
    unfold Core.pageReadLoopR
    exact .bind .get fun _ => .bind (.readRegister he h8) fun _ => .ite (fun _ => .bind (.txFrom he) fun _ => ih _ _) fun _ => ih _ _

theorem pageWriteLoop {m : Msg} {addr : U8} (n index : Nat) (acc : List U8) :
    FootA true e (Core.pageWriteLoopR c (fun _ => [.sendEvent e]) m addr n index acc) := by
  induction n generalizing index acc with
  | zero => exact .pure _
  | succ n ih =>
    unfold Core.pageWriteLoopR
    exact .bind .get fun _ => .bind (.of he (A := [.ub]) (.dataAt (by decide) fun _ => trivial) rfl) fun _ => .bind (.writeRegister he h8) fun _ => ih _ _

theorem extReadLoop (k : Nat) (addr : U8) (count : U16) (acc : List U8) :
    FootA true e (Core.extReadLoopR c (fun _ => [.sendEvent e]) k addr count acc) := by
  induction k generalizing addr count acc with
  | zero => exact .pure _
  | succ k ih =>
    unfold Core.extReadLoopR
    exact .bind .get fun _ => .bind (.readRegister he h8) fun _ => .ite (fun _ => ih _ _ _) fun _ => .pure _

theorem extWriteLoop {m : Msg} {page : U16} {addr : U8} (n index : Nat) (acc : List U8) :
    FootA true e (Core.extWriteLoopR c (fun _ => [.sendEvent e]) m page addr n index acc) := by
  induction n generalizing index acc with
  | zero => exact .pure _
  | succ n ih =>
    unfold Core.extWriteLoopR
    exact .bind (.of he (A := [.ub]) (.dataAt (by decide) fun _ => trivial) rfl) fun _ => .bind (.writeRegister he h8) fun _ => ih _ _

theorem extendedPageReadRegister : FootA true e (Core.extendedPageReadRegisterR c (fun _ => [.sendEvent e])) := by
  unfold Core.extendedPageReadRegisterR
  exact .bind .get fun _ => .whenM fun _ => .bind (.extReadLoop he h8 _ _ _ _) fun _ => .bind (.write he rfl) fun _ => .whenM fun _ =>
    .of he (A := [.ext]) (.one (a := .ext) (by decide) fun w => ⟨_, rfl⟩) rfl

omit h8 he in
/-- The last call of a function is a change to the idle state. -/
theorem withIdle_idle (h8 : e.size.toNat ≤ 8) {α : Type} {m : M α} {w w1 : W} (hm : (m w).2 = (Core.changeToStateIdle c w1).2) (h : Ans true e w w1)
    (hs : w1.v.st = w.v.st) : Ans true e w (Core.withIdle c (fun _ => [.sendEvent e]) m w).2 := by
  have e0 : (Core.withIdle c (fun _ => [.sendEvent e]) m w).2 = (Vscp.whenM (w.v.st ≠ .idle ∧ (m w).2.v.st = .idle ∧ c.idleCallout = true)
      (callback c (fun _ => [.sendEvent e])) (m w).2).2 := rfl
  rw [e0, hm]
  by_cases hi : w1.v.st = .idle
  · have : (Core.changeToStateIdle c w1).2 = w1 := by
      unfold Core.changeToStateIdle
      rw [bind_run, get_run, whenM_run, if_neg (by simp [hi])]
    rw [this, whenM_run, if_neg (by rw [← hs]; simp [hi])]
    exact h
  · refine h.trans ?_
    cases hc : c.idleCallout with
    | false =>
      rw [whenM_run, if_neg (by simp)]
      unfold Core.changeToStateIdle
      rw [bind_run, get_run]
      simp only [whenM_run, if_pos hi, bind_run, hc, Bool.false_eq_true, if_false]
      exact ⟨[.lamp .off], rfl, .plain rfl (fun r => by simp) .nil⟩
    | true =>
      have e1 : (Core.changeToStateIdle c w1).2 = (emit .idleEntered { w1 with v := { w1.v with st := .idle }, out := w1.out ++ [.lamp .off] }).2 := by
        unfold Core.changeToStateIdle
        rw [bind_run, get_run]
        simp only [whenM_run, if_pos hi, bind_run, hc, if_true]
        rfl
      rw [e1, whenM_run, if_pos ⟨by rw [← hs]; exact hi, rfl, rfl⟩]
      refine Ans.trans (w' := { w1 with v := { w1.v with st := .idle }, out := w1.out ++ [.lamp .off] }) ?_ ?_
      · exact ⟨[.lamp .off], rfl, .plain rfl (fun r => by simp) .nil⟩
      · exact FootA.call (x := true) (e := e) h8 (o := .idleEntered) rfl c _

omit h8 he in
/-- A function without a change to the idle state. -/
theorem withIdle_other {cb : Callbacks} {α : Type} {m : M α} {w : W} (h : Ans true e w (m w).2) (hs : (m w).2.v.st = .idle → w.v.st = .idle) :
    Ans true e w (Core.withIdle c cb m w).2 := by
  have e0 : (Core.withIdle c cb m w).2 = (Vscp.whenM (w.v.st ≠ .idle ∧ (m w).2.v.st = .idle ∧ c.idleCallout = true) (callback c cb) (m w).2).2 := rfl
  rw [e0, whenM_run, if_neg fun h => h.1 (hs h.2.1)]
  exact h

omit h8 he in
theorem toReset_st (c : Ctx) (t : U8) (w : W) : (Core.changeToStateReset t w).2.v.st = .reset := by
  unfold Core.changeToStateReset
  rw [bind_run, get_run]
  simp only
  rw [whenM_run]
  split
  · simp only [bind_run, ite_run]
    split
    · exact (Foot.timerStart (c := c) (bad := True) (A := [.tm .main]) 1000 (by decide) _).same .st (by decide)
    · exact (Foot.timerStop (c := c) (bad := True) (A := [.tm .main]) (by decide) _).same .st (by decide)
  · rename_i h
    exact Classical.not_not.mp h

theorem drop {m : Msg} : FootA true e (Core.withIdle c (fun _ => [.sendEvent e]) (Core.handleDropNicknameId c m)) := by
  intro w
  by_cases h0 : 0 < m.size.toNat ∧ w.v.nick = m.data[0]
  case neg =>
    have : (Core.handleDropNicknameId c m w).2 = w := by
      unfold Core.handleDropNicknameId
      rw [bind_run, get_run, whenM_run, if_neg h0]
    exact FootA.withIdle_other (by rw [this]; exact .refl e w) (by rw [this]; exact id)
  have run : Core.handleDropNicknameId c m w = (if m.size = 1 then do
      Core.writeNicknameId c Core.NOT_INIT
      Core.changeToStateReset 0
    else if m.size = 2 ∨ m.size = 3 then do
      Vscp.whenM (m.data[1] &&& 0x40 ≠ 0) (do
        Core.restoreFactoryDefaultSettings c
        Vscp.whenM (m.data[1] &&& 0x20 ≠ 0) (Core.writeNicknameId c w.v.nick))
      (if m.data[1] &&& 0x20 ≠ 0 then Core.changeToStateReset (if m.size = 3 then m.data[2] else 0)
       else if m.data[1] &&& 0x80 ≠ 0 then do
         Core.writeNicknameId c Core.NOT_INIT
         Core.changeToStateIdle c
       else do
         Core.writeNicknameId c Core.NOT_INIT
         Core.changeToStateReset (if m.size = 3 then m.data[2] else 0))
    else Pure.pure () : M Unit) w := by
    unfold Core.handleDropNicknameId
    rw [bind_run, get_run, whenM_run, if_pos h0]
  have hw : ∀ b, FootA true e (Core.writeNicknameId c b) := fun b => .of he (A := [.nick]) (.writeNicknameId (by decide)) rfl
  have hr : ∀ t, FootA true e (Core.changeToStateReset t) := fun t => .of he (A := [.st .reset, .sec, .tm .main]) (.changeToStateReset (by decide)) rfl
  by_cases h1 : m.size = 1
  · rw [if_pos h1] at run
    refine FootA.withIdle_other ?_ ?_
    · rw [run]; exact FootA.bind (hw _) (fun _ => hr _) w
    · rw [run, bind_run, toReset_st c]; intro h; cases h
  rw [if_neg h1] at run
  by_cases h2 : m.size = 2 ∨ m.size = 3
  case neg =>
    rw [if_neg h2] at run
    exact FootA.withIdle_other (by rw [run]; exact .refl e w) (by rw [run]; exact id)
  rw [if_pos h2, bind_run] at run
  have hf : Foot c True [.restore, .nick] (Vscp.whenM (m.data[1] &&& 0x40 ≠ 0) (do
        Core.restoreFactoryDefaultSettings c
        Vscp.whenM (m.data[1] &&& 0x20 ≠ 0) (Core.writeNicknameId c w.v.nick))) :=
    .whenM fun _ => .bind (.restore (by decide)) fun _ => .whenM fun _ => .writeNicknameId (by decide)
  have hst := (hf w).same .st (by decide)
  have ha := plain_steps (x := true) he rfl (hf w)
  generalize (Vscp.whenM (m.data[1] &&& 0x40 ≠ 0) (do
        Core.restoreFactoryDefaultSettings c
        Vscp.whenM (m.data[1] &&& 0x20 ≠ 0) (Core.writeNicknameId c w.v.nick)) w).2 = w1 at *
  by_cases h3 : m.data[1] &&& 0x20 ≠ 0
  · rw [if_pos h3] at run
    exact FootA.withIdle_other (by rw [run]; exact ha.trans (hr _ _)) (by rw [run, toReset_st c]; intro h; cases h)
  rw [if_neg h3] at run
  by_cases h4 : m.data[1] &&& 0x80 ≠ 0
  · rw [if_pos h4, bind_run] at run
    refine FootA.withIdle_idle h8 (w1 := (Core.writeNicknameId c Core.NOT_INIT w1).2) (by rw [run]) (ha.trans (hw _ _)) ?_
    exact ((Foot.writeNicknameId (c := c) (bad := True) (A := [.nick]) (by decide) w1).same .st (by decide)).trans hst
  · rw [if_neg h4, bind_run] at run
    exact FootA.withIdle_other (by rw [run]; exact ha.trans ((hw _ _).trans (hr _ _))) (by rw [run, toReset_st c]; intro h; cases h)

theorem boot {m : Msg} : FootA true e (Core.handleEnterBootLoaderModeR c (fun _ => [.sendEvent e]) m) := by
  unfold Core.handleEnterBootLoaderModeR
  have hg : ∀ i, FootA true e (DevData.getGuid c i) := fun i => .of he (A := []) (.guidRead i) rfl
  have htx : FootA true e (Core.txVoid c 3 14 [0]) := .of he (A := [.tx]) (.txVoid (.inl (by simp)) (by decide)) rfl
  refine .bind .get fun _ => .whenM fun _ => .ite (fun hbl => ?_) fun _ => htx
  refine .bind (hg _) fun _ => .bind (hg _) fun _ => .bind (hg _) fun _ => .bind (hg _) fun _ => .ite (fun _ => htx) fun _ => ?_
  refine .bind (fun w => FootA.withIdle_idle h8 (w1 := w) rfl (.refl e w) rfl) fun _ => ?_
  exact .bind (.of he (A := [.boot]) (.one (a := .boot) (by decide) fun w => ⟨hbl, _, rfl⟩) rfl) fun _ => .call h8 rfl c

theorem handlerR {m : Msg} : FootA true e (Core.handleProtocolClassTypeR c (fun _ => [.sendEvent e]) m) := by
  unfold Core.handleProtocolClassTypeR
  split
  · exact .drop he h8
  · unfold Core.handleReadRegisterR
    exact .bind .get fun _ => .whenM fun _ => .bind (.readRegister he h8) fun _ => .rsp he
  · unfold Core.handleWriteRegisterR
    exact .bind .get fun _ => .whenM fun _ => .bind (.writeRegister he h8) fun _ => .whenM fun _ => .rsp he
  · exact .boot he h8
  · unfold Core.handlePageReadR
    exact .bind .get fun _ => .whenM fun _ => .bind (.pageReadLoop he h8 _ _ _) fun _ => .whenM fun _ => .txFrom he
  · unfold Core.handlePageWriteR
    exact .bind .get fun _ => .whenM fun _ => .bind (.pageWriteLoop he h8 _ _ _) fun _ => .txFrom he
  · unfold Core.handleIncrementRegisterR
    exact .bind .get fun _ => .whenM fun _ => .bind (.readRegister he h8) fun _ => .bind (.writeRegister he h8) fun _ => .whenM fun _ => .rsp he
  · unfold Core.handleDecrementRegisterR
    exact .bind .get fun _ => .whenM fun _ => .bind (.readRegister he h8) fun _ => .bind (.writeRegister he h8) fun _ => .whenM fun _ => .rsp he
  · unfold Core.handleExtendedPageReadRegisterR
    exact .bind .get fun _ => .whenM fun _ => .bind (.of he (A := [.ext]) (.one (a := .ext) (by decide) fun w => ⟨_, rfl⟩) rfl) fun _ =>
      .extendedPageReadRegister he h8
  · unfold Core.handleExtendedPageWriteRegisterR
    exact .bind .get fun _ => .whenM fun _ => .bind (.extWriteLoop he h8 _ _ _) fun _ => .txFrom he
  · rename_i n8 n9 n11 n12 n24 n25 n29 n30 n37 n38
    unfold Core.handleProtocolClassTypeC
    by_cases h1 : m.typ = 1
    · rw [handler1 h1]
      by_cases hs : c.hbSegment = true
      · have := FootA.heartbeat (x := true) he h8 (m := m) hs
        have e2 : (Vscp.whenM c.hbSegment (Core.handleHeartbeat c m)) = Core.handleHeartbeat c m := if_pos hs
        rw [e2]
        refine fun w => ?_
        have e3 : ∀ w : W, Vscp.whenM (m.typ = 1 ∧ c.hbSegment = true ∧ 5 ≤ m.size.toNat ∧ c.segTimeCallout = true) (callback c (fun _ => [.sendEvent e])) w =
            Vscp.whenM (c.hbSegment = true ∧ 5 ≤ m.size.toNat ∧ c.segTimeCallout = true) (callback c (fun _ => [.sendEvent e])) w := by
          intro w; simp only [whenM_run, h1, true_and]
        have := this w
        rw [bind_run] at this ⊢
        rw [e3]
        exact this
      · refine .bind (.whenM fun h => absurd h hs) fun _ => .whenM fun h => absurd h.2.1 hs
    · refine .bind ?_ fun _ => .whenM fun h => absurd h.1 h1
      have key : Foot c True (protoActs.filter (plainAct true)) (Core.handleProtocolClassType c m) := by
        unfold Core.handleProtocolClassType
        split
        · rename_i h; exact absurd (BitVec.eq_of_toNat_eq h) h1
        · exact .mono .handleNewNodeOnline (by decide)
        · exact .mono .handleProbeAck (by decide)
        · exact .mono .handleSetNicknameId (by decide)
        · rename_i h; exact absurd h n8
        · rename_i h; exact absurd h n9
        · rename_i h; exact absurd h n11
        · rename_i h; exact absurd h n12
        · exact .mono .handleGuidDropNickname (by decide)
        · rename_i h; exact absurd h n24
        · rename_i h; exact absurd h n25
        · rename_i h; exact absurd h n29
        · rename_i h; exact absurd h n30
        · exact .mono .handleWhoIsThere (by decide)
        · exact .mono .handleGetDecisionMatrixInfo (by decide)
        · rename_i h; exact absurd h n37
        · rename_i h; exact absurd h n38
        · exact .pure _
      exact .of he key (by decide)

theorem activeEventR {m : Msg} : FootA true e (Core.activeEventR c (fun _ => [.sendEvent e]) m) := by
  unfold Core.activeEventR
  refine .bind (.ite (fun _ => .ite (fun _ => ?_) fun _ => .handlerR he h8) fun _ => .call h8 rfl c) fun _ =>
    .bind (.whenM fun _ => .dmExecuteActions he h8) fun _ => .whenM fun _ => .ngExecuteActions he h8
  refine .bind .get fun w0 => ?_
  have := FootA.bind (FootA.call (x := true) h8 (o := .protoEvent m (c.protoHandled w0.out.length)) rfl c)
    fun _ => FootA.whenM (p := c.protoHandled w0.out.length = false) fun _ => FootA.handlerR he h8 (m := m)
  exact this

omit he h8 in
/-- Steps which do not lead to the idle state. -/
theorem not_idle {A : List Act} (hA : A.all (fun a => !a.touches .st || decide (a ∈ [Act.st .active, .st .preActive])) = true) {w w' : W}
    (hs : Steps c True A w w') : w'.v.st = .idle → w.v.st = .idle := by
  refine hs.rel (R := fun w w' => w'.v.st = .idle → w.v.st = .idle) (fun _ => id) (fun _ _ _ h h' x => h (h' x)) ?_
  intro a ha w w' hst
  have := List.all_eq_true.mp hA a ha
  simp only [Bool.or_eq_true, Bool.not_eq_true', decide_eq_true_eq, List.mem_cons, List.not_mem_nil, or_false] at this
  rcases this with h | rfl | rfl
  · have h1 : w'.v.st = w.v.st := hst.same .st h
    rw [h1]; exact id
  · obtain ⟨-, rfl⟩ := hst; intro h; cases h
  · obtain ⟨-, rfl⟩ := hst; intro h; cases h

theorem initState {rx : Option Msg} (w : W) (hs : w.v.st = .init) :
    Ans true e w (Core.withIdle c (fun _ => [.sendEvent e]) (Core.stateInit c rx) w).2 := by
  have other : ∀ {A : List Act}, A.all (plainAct true) = true →
      A.all (fun a => !a.touches .st || decide (a ∈ [Act.st .active, .st .preActive])) = true → Steps c True A w (Core.stateInit c rx w).2 →
      Ans true e w (Core.withIdle c (fun _ => [.sendEvent e]) (Core.stateInit c rx) w).2 :=
    fun h1 h2 h => FootA.withIdle_other (plain_steps he h1 h) (not_idle h2 h)
  have ist : ∀ (f : Vars → ISt) (g : Vars → U8), Foot c True [.tx, .ist, .tm .main, .st .preActive, .nick, .st .active, .tm .heartbeat]
      (setV fun v => { v with ist := f v, probe := g v }) := fun f g => .one (a := .ist) (by decide) fun w => ⟨_, _, rfl⟩
  by_cases hp : w.v.ist = .probe ∧ w.v.probe = Core.NOT_INIT ∧ (Core.tx c 7 2 [w.v.probe] w).1 = true
  · have ht : Foot c True [.tx, .tm .main] (do let _ ← Core.tx c 7 2 [w.v.probe]; timerStop .main : M Unit) :=
      .bind (.tx (.inl (by simp)) (by decide)) fun _ => .timerStop (by decide)
    refine FootA.withIdle_idle h8 (w1 := ((do let _ ← Core.tx c 7 2 [w.v.probe]; timerStop .main : M Unit) w).2) ?_
      (plain_steps he rfl (ht w)) ((ht w).same .st (by decide))
    unfold Core.stateInit
    rw [bind_run, get_run]
    simp only [hp.1, bind_run, whenM_run, hp.2.2, if_pos hp.2.1, if_true]
  · refine other (A := [.tx, .ist, .tm .main, .st .preActive, .nick, .st .active, .tm .heartbeat]) rfl rfl ?_
    unfold Core.stateInit
    rw [bind_run, get_run]
    cases hi : w.v.ist <;> dsimp only
    · exact Foot.bind (.tx (.inl (by simp)) (by decide)) (fun _ => .whenM fun _ => .bind (ist (fun _ => _) (fun v => v.probe)) fun _ =>
        .timerStart _ (by decide)) w
    · rw [bind_run, timerRunning_run]
      dsimp only
      rw [ite_run]
      split
      · exact ist _ _ w
      · rw [whenM_run]
        split
        · exact Foot.changeToStatePreActive (by decide) w hs
        · exact .refl _
    · have htx := Foot.tx (c := c) (bad := True) (A := [.tx, .ist, .tm .main, .st .preActive, .nick, .st .active, .tm .heartbeat])
        (prio := 7) (typ := 2) (l := [w.v.probe]) (.inl (by simp)) (by decide)
      rw [bind_run]
      refine (htx w).trans ?_
      rw [whenM_run]
      split
      · rename_i hok
        rw [ite_run, if_neg fun h => hp ⟨hi, h, hok⟩]
        exact Foot.bind (ist (fun _ => _) (fun v => v.probe)) (fun _ => .timerStart _ (by decide)) _
      · exact .refl _
    · exact Foot.bind (.timerRunning _) (fun _ => .ite (fun _ => .bind (.writeNicknameId (by decide)) fun _ =>
        .changeToStateActive (by decide)) fun _ => .whenM fun _ => .bind (.timerStop (by decide)) fun _ => ist _ _) w

theorem resetState (w : W) : Ans true e w (Core.stateResetR c (fun _ => [.sendEvent e]) w).2 := by
  have e0 : (Core.stateResetR c (fun _ => [.sendEvent e]) w).2 = (Vscp.whenM (w.v.resetReq = false ∧ (Core.stateReset w).2.v.resetReq = true)
      (callback c (fun _ => [.sendEvent e])) (Core.stateReset w).2).2 := rfl
  rw [e0]
  by_cases h : w.v.resetReq = false ∧ (timerRunning .main w).1 = false
  case neg =>
    have : (Core.stateReset w).2 = w := by
      unfold Core.stateReset
      rw [bind_run, get_run, bind_run, whenM_run, if_neg h]
      rfl
    rw [this, whenM_run, if_neg (by cases w.v.resetReq <;> simp)]
    exact .refl e w
  by_cases h2 : (if 0 < w.v.secCnt.toNat then w.v.secCnt - 1 else w.v.secCnt) = 0
  · have e1 : (Core.stateReset w).2 = { w with
        v := { w.v with secCnt := if 0 < w.v.secCnt.toNat then w.v.secCnt - 1 else w.v.secCnt, resetReq := true }, out := w.out ++ [.resetRequest] } := by
      unfold Core.stateReset
      rw [bind_run, get_run, bind_run, whenM_run, if_pos h, timerRunning_run]
      simp only [bind_run, get_run, setV_run, ite_run, if_pos h2]
      rfl
    rw [e1, whenM_run, if_pos ⟨h.1, rfl⟩]
    obtain ⟨tp, ub, t, hw, hc⟩ := writeMessage_frame c e { w with
        v := { w.v with secCnt := if 0 < w.v.secCnt.toNat then w.v.secCnt - 1 else w.v.secCnt, resetReq := true }, out := w.out ++ [.resetRequest] }
    show Ans true e w (writeMessage c e _).2
    rw [hw]
    rcases hc with rfl | ⟨-, -, hc⟩
    · exact ans_call (o := .resetRequest) (zs := []) rfl rfl (by rw [List.append_nil])
    · omega
  · have hf : Foot c True [.sec, .tm .main] (do
        setV fun v => { v with secCnt := if 0 < v.secCnt.toNat then v.secCnt - 1 else v.secCnt }
        timerStart .main 1000 : M Unit) := .bind (.one (a := .sec) (by decide) fun w => ⟨_, rfl⟩) fun _ => .timerStart _ (by decide)
    have e1 : (Core.stateReset w).2 = ((do
        setV fun v => { v with secCnt := if 0 < v.secCnt.toNat then v.secCnt - 1 else v.secCnt }
        timerStart .main 1000 : M Unit) w).2 := by
      unfold Core.stateReset
      rw [bind_run, get_run, bind_run, whenM_run, if_pos h, timerRunning_run]
      simp only [bind_run, get_run, setV_run, ite_run, if_neg h2]
    have hr := (hf w).same .reset (by decide)
    rw [e1, whenM_run, if_neg ?_]
    · exact plain_steps he rfl (hf w)
    · rintro ⟨h3, h4⟩
      rw [show _ = w.v.resetReq from hr, h3] at h4
      cases h4

omit he h8 in
/-- `init`, up to the variables. -/
def initVars (c : Ctx) (ok : Tmr → Bool) : M Unit := do
  modify fun w => { w with tm := { rem := fun _ => 0, ok := ok } }
  Transport.init c
  Vscp.whenM c.dm (Dm.init c)
  let n ← Ps.readNickname c
  setV fun v => { v with
    nick := n
    st := .startup
    ist := .probe
    resetReq := false
    rx := { v.rx with cls := Transport.CLASS_PROTOCOL, typ := 0, prio := 7, oAddr := Core.NOT_INIT, hard := false } }
  emit (.lamp .blinkSlow)

/-- `init`, what follows, up to the error state. -/
def initMemory (c : Ctx) : M Unit := do
  timerStart .epoch 1000
  let valid ← Core.checkPersistentMemory c
  Vscp.whenM (valid = false) (Core.restoreFactoryDefaultSettings c)

omit he h8 in
theorem init_split (ok : Tmr → Bool) (w : W) : (Core.init c ok w).2 =
    (Vscp.whenM ((Core.init c ok w).1 = false) (Core.changeToStateError c) (initMemory c (initVars c ok w).2).2).2 := rfl

theorem init (ok : Tmr → Bool) : FootA true e (Core.initR c (fun _ => [.sendEvent e]) ok) := by
  intro w
  have e0 : (Core.initR c (fun _ => [.sendEvent e]) ok w).2 = (Vscp.whenM ((Core.init c ok w).1 = false ∧ c.errorCallout = true)
      (callback c (fun _ => [.sendEvent e])) (Core.init c ok w).2).2 := rfl
  rw [e0, init_split]
  have h1 : Steps c True [.tmInit, .lbInit, .dmInit, .initVars] w (initVars c ok w).2 := by
    refine Steps.trans (.one (a := .tmInit) (by decide) ⟨ok, rfl⟩) ?_
    refine Steps.trans (.one (a := .lbInit) (by decide) rfl) ?_
    have e : (M.modify (fun w => { w with tm := { rem := fun _ => 0, ok := ok } }) w).2 =
      { w with tm := { rem := fun _ => 0, ok := ok } } := rfl
    unfold initVars
    rw [bind_run, bind_run, e]
    generalize (Transport.init c { w with tm := { rem := fun _ => 0, ok := ok } }).2 = w1
    revert w1
    refine Foot.bind (.whenM fun _ => ?_) fun _ => ?_
    · unfold Dm.init
      exact .ite (fun _ => .one (a := .dmInit) (by decide) fun w => rfl) fun _ => .pure _
    · intro w
      exact .one (a := .initVars) (by decide) ⟨{ w.v.rx with
        cls := Transport.CLASS_PROTOCOL, typ := 0, prio := 7, oAddr := Core.NOT_INIT, hard := false }, rfl⟩
  have hst : (initVars c ok w).2.v.st = .startup := rfl
  have h2 : Foot c True [.tm .epoch, .restore] (initMemory c) := by
    refine .bind (.timerStart _ (by decide)) fun _ => .bind ?_ fun _ => .whenM fun _ => .restore (by decide)
    unfold Core.checkPersistentMemory
    exact .bind .getStartUpControl fun _ => .pure _
  have hst2 : (initMemory c (initVars c ok w).2).2.v.st = .startup := ((h2 _).same .st (by decide)).trans hst
  have ha : Ans true e w (initMemory c (initVars c ok w).2).2 := (plain_steps he rfl h1).trans (plain_steps he rfl (h2 _))
  generalize (initMemory c (initVars c ok w).2).2 = w1 at hst2 ha
  cases hg : (Core.init c ok w).1 with
  | true =>
    rw [whenM_run, whenM_run, if_neg (by simp), if_neg (by simp)]
    exact ha
  | false =>
    rw [whenM_run (p := false = false), if_pos rfl]
    refine ha.trans ?_
    unfold Core.changeToStateError
    rw [bind_run, get_run]
    simp only [whenM_run, if_pos (show w1.v.st ≠ .error by rw [hst2]; simp), bind_run]
    cases hc : c.errorCallout with
    | false =>
      simp only [Bool.false_eq_true, and_false, if_false]
      exact ⟨[.lamp .off], rfl, .plain rfl (fun r => by simp) .nil⟩
    | true =>
      simp only [and_self, if_true]
      refine Ans.trans (w' := { w1 with v := { w1.v with st := .error }, out := w1.out ++ [.lamp .off] }) ?_ ?_
      · exact ⟨[.lamp .off], rfl, .plain rfl (fun r => by simp) .nil⟩
      · exact FootA.call (x := true) (e := e) h8 (o := .errorEntered) rfl c _

theorem dispatchR {rx : Option Msg} : FootA true e (Core.dispatchR c (fun _ => [.sendEvent e]) rx) := by
  intro w
  unfold Core.dispatchR
  rw [bind_run, get_run]
  cases hs : w.v.st with
  | active =>
    simp only
    unfold Core.stateActiveR Core.activeExtReadR
    refine FootA.bind ?_ (fun _ => .bind (.activeHeartbeat he h8) fun _ =>
      .bind (.bind .get fun _ => .ite (fun _ => .bind (.extendedPageReadRegister he h8) fun _ => .pure _) fun _ => .pure _) fun _ => .pure _) w
    cases rx with
    | none => exact .pure _
    | some m => exact .activeEventR he h8
  | init => exact FootA.initState he h8 w hs
  | reset => exact FootA.resetState he h8 w
  | startup =>
    simp only; unfold Core.dispatch; rw [bind_run, get_run, hs]
    exact FootA.bind (.of he .stateStartup (by decide)) (fun _ => .pure _) w
  | preActive =>
    simp only; unfold Core.dispatch; rw [bind_run, get_run, hs]
    exact FootA.bind (.of he .statePreActive (by decide)) (fun _ => .pure _) w
  | idle =>
    simp only; unfold Core.dispatch; rw [bind_run, get_run, hs]
    exact .refl e w
  | error =>
    simp only; unfold Core.dispatch; rw [bind_run, get_run, hs]
    exact .refl e w

theorem opR {o : Op} (ho : o.Ok) (hne : o ≠ .sendEvent e) : FootA true e (stepOpR c (fun _ => [.sendEvent e]) o) := by
  cases o with
  | init ok => exact fun w => FootA.init he h8 ok w
  | process rx =>
    intro w
    show Ans true e w (Core.processR c _ rx w).2
    rw [processR_split]
    have hrx : ∀ m, rx = some m → m.size.toNat ≤ 8 := by intro m hm; subst hm; exact ho
    exact (plain_steps he rfl (preProcess_steps (bad := True) hrx w)).trans (FootA.dispatchR he h8 _)
  | tick ms => exact fun w => plain_step he (bad := True) (a := .tick) rfl ⟨_, rfl⟩
  | startNodeSegmentInit => exact .of he (A := [.nick, .seg, .st .init, .ist, .tm .main, .tm .heartbeat, .tm .guidDrop]) (.startNodeSegmentInit (by decide)) rfl
  | restore => exact fun w => plain_step he (bad := True) (a := .restore) rfl rfl
  | setAlarm v => exact fun w => plain_step he (bad := True) (a := .alarmOr) rfl ⟨_, rfl⟩
  | setTime t => exact fun w => plain_step he (bad := True) (a := .epochSet) rfl ⟨_, rfl⟩
  | enableHeartbeat b => exact fun w => plain_step he (bad := True) (a := .hb) rfl rfl
  | sendEvent m =>
    intro w
    show Ans true e w (writeMessage c m w).2
    obtain ⟨tp, ub, t, h, hc⟩ := writeMessage_frame c m w
    rw [h]
    refine ⟨t, rfl, plain_list t fun o ho => ?_⟩
    rcases hc with rfl | ⟨rfl, -⟩
    · rw [List.mem_singleton.mp ho]
      refine ⟨rfl, fun r h => ?_⟩
      injection h with h
      exact hne (by rw [h])
    · cases ho
  | getTransmitErrors => exact fun w => plain_step he (bad := True) (a := .errClr) rfl rfl
  | loggerEnable b => exact fun w => plain_step he (bad := True) (a := .lg) rfl ⟨_, rfl⟩
  | loggerLevel l => exact fun w => plain_step he (bad := True) (a := .lg) rfl ⟨_, rfl⟩
  | log id level msg => exact .of he Foot.log (by decide)
  | logUInt32 id level x => exact .of he Foot.log (by decide)

end FootA

/-- C84: the application gets control once in every callout, also in its register functions and when it is told about a state, and never else: if
it sends the event `e` in each of them (and nowhere else; the framework never sends an event with the other hard-coded flag), then in every history
each callout is directly followed by the transmission of `e` (a write of a register: behind the zone it stores), and `e` is not
transmitted anywhere else. -/
theorem C84_reg_once {c : Ctx} {e : Msg} (he : e.hard ≠ c.hardCoded) (h8 : e.size.toNat ≤ 8) (ok : Tmr → Bool) (ps : Nat → U8) (ops : List Op)
    (hops : ∀ op ∈ ops, op.Ok) (hne : .sendEvent e ∉ ops) : Answered true e (nodeR c (fun _ => [.sendEvent e]) ok ps ops).out := by
  have key : ∀ (l : List Op) (w : W), (∀ op ∈ l, op.Ok) → .sendEvent e ∉ l → Ans true e w (runOpsR c (fun _ => [.sendEvent e]) l w) := by
    intro l
    induction l with
    | nil => exact fun w _ _ => .refl e w
    | cons o l ih =>
      intro w h1 h2
      refine (FootA.opR he h8 (h1 o (by simp)) (fun h => h2 (by simp [h])) w).trans (ih _ (fun x hx => h1 x (by simp [hx])) fun h => h2 (by simp [h]))
  obtain ⟨t, h1, h2⟩ := key (.init ok :: ops) (powerUp ps) (by
    intro o ho
    rcases List.mem_cons.mp ho with rfl | ho
    · trivial
    · exact hops o ho) (by simp [hne])
  have h0 : (powerUp ps).out = [] := rfl
  rw [h0, List.nil_append] at h1
  exact h1 ▸ h2

/-- The answers of the example: a timer cannot be created; a register of the application is read; it is written (the value 90 is what the application
reports); the node is told to drop its nickname and to be idle. -/
example : (nodeR Ex.ctx (fun _ => [.sendEvent reply]) (fun _ => false) (mem 0x60) []).out =
      [.lamp .blinkSlow, .lamp .off, .errorEntered, .tx reply true] ∧
    (nodeR Ex.ctx (fun _ => [.sendEvent reply]) allOk (mem 0x60) [.process none, .process (some (Ex.msg 0 9 9 [5, 16])), .process none]).out.drop 3 =
      [.appRead 0 16 4, .tx reply true, .tx (Ex.msg 0 10 5 [16, 4]) true, .event reply, .tx reply true] ∧
    (nodeR Ex.ctx (fun _ => [.sendEvent reply]) allOk (mem 0x60) [.process none, .process (some (Ex.msg 0 11 9 [5, 16, 7]))]).out.drop 3 =
      [.appWrite 0 16 7 90, .tx reply true, .tx (Ex.msg 0 10 5 [16, 90]) true] ∧
    (nodeR Ex.ctx (fun _ => [.sendEvent reply]) allOk (mem 0x60) [.process none, .process (some (Ex.msg 0 8 9 [5, 0x80]))]).out.drop 3 =
      [.psW 1 0xFF, .lamp .off, .idleEntered, .tx reply true] := by decide +kernel

end Vscp.Callout
