/-
Property C84, continued: the application may call the framework also from inside of its register functions.
-/
import Verif.Lemmas.CalloutReg
import Verif.Props.Callout
import Verif.Lemmas.RegWrite

namespace Vscp.Callout
open Vscp.Spec M Transport Vscp.Safety

/-- A node powered up with the given memory, initialised, and used by the given calls; the application makes the calls `cb` in its
callbacks and in its register functions. -/
def nodeR (c : Ctx) (cb : Callbacks) (ok : Tmr → Bool) (ps : Nat → U8) (ops : List Op) : W :=
  runOpsR c cb (.init ok :: ops) (powerUp ps)

section none
variable (c : Ctx)

theorem callback_none : callback c (fun _ => []) = (pure () : M Unit) := rfl

theorem readR_none (page : U16) (addr : U8) : Core.readRegisterR c (fun _ => []) page addr = Core.readRegister c page addr := by
  funext w
  unfold Core.readRegisterR
  rw [callback_none, bind_run, bind_run, whenM_run]
  split <;> rfl

theorem writeR_none (page : U16) (addr v : U8) : Core.writeRegisterR c (fun _ => []) page addr v = Core.writeRegister c page addr v := by
  funext w
  unfold Core.writeRegisterR
  rw [callback_none, bind_run, bind_run, whenM_run]
  split <;> rfl

theorem read_same (page : U16) (addr : U8) (w : W) (k : Comp) (h : [Act.alarm, .appRead].all (fun a => !a.touches k) = true) :
    k.same w (Core.readRegister c page addr w).2 :=
  (Foot.readRegister (c := c) (bad := True) (A := [.alarm, .appRead]) (page := page) (addr := addr) (by decide) w).same k h

theorem pageReadLoopR_none (addr : U8) (n index : Nat) (acc : List U8) (w : W) :
    Core.pageReadLoopR c (fun _ => []) w.v.nick addr n index acc w = Core.pageReadLoop c addr n index acc w := by
  induction n generalizing index acc w with
  | zero => rfl
  | succ n ih =>
    unfold Core.pageReadLoopR Core.pageReadLoop
    simp only [bind_run, get_run, readR_none]
    have hn : (Core.readRegister c w.v.page (addr + BitVec.ofNat 8 index) w).2.v.nick = w.v.nick := read_same c _ _ w .nick (by decide)
    generalize Core.readRegister c w.v.page (addr + BitVec.ofNat 8 index) w = x at hn
    rw [← hn]
    by_cases h8 : 8 ≤ (acc ++ [x.1]).length
    · rw [if_pos h8, if_pos h8]
      simp only [bind_run]
      have e : Core.txFrom c x.2.v.nick 3 26 (acc ++ [x.1]) x.2 = Core.txVoid c 3 26 (acc ++ [x.1]) x.2 := rfl
      have hn2 : (Core.txVoid c 3 26 (acc ++ [x.1]) x.2).2.v.nick = x.2.v.nick :=
        (Foot.txVoid (c := c) (bad := True) (A := [.tx]) (.inr trivial) (by decide) (by decide) x.2).same .nick (by decide)
      rw [e, ← hn2]
      exact ih _ _ _
    · rw [if_neg h8, if_neg h8]
      exact ih _ _ _

theorem handlePageReadR_none (m : Msg) : Core.handlePageReadR c (fun _ => []) m = Core.handlePageRead c m := by
  funext w
  unfold Core.handlePageReadR Core.handlePageRead
  simp only [bind_run, get_run, whenM_run]
  split
  · rw [pageReadLoopR_none]
    have hn : (Core.pageReadLoop c m.data[1] (Core.limitNum m.data[1] m.data[2]) 0 [0] w).2.v.nick = w.v.nick :=
      (Foot.pageReadLoop (c := c) (bad := True) _ 0 [0] (by simp) w).same .nick (by decide)
    generalize Core.pageReadLoop c m.data[1] (Core.limitNum m.data[1] m.data[2]) 0 [0] w = x at hn
    rw [← hn]
    rfl
  · rfl

theorem pageWriteLoopR_none (m : Msg) (addr : U8) (n index : Nat) (acc : List U8) :
    Core.pageWriteLoopR c (fun _ => []) m addr n index acc = Core.pageWriteLoop c m addr n index acc := by
  induction n generalizing index acc with
  | zero => rfl
  | succ n ih => simp only [Core.pageWriteLoopR, Core.pageWriteLoop, writeR_none, ih]

theorem extWriteLoopR_none (m : Msg) (page : U16) (addr : U8) (n index : Nat) (acc : List U8) :
    Core.extWriteLoopR c (fun _ => []) m page addr n index acc = Core.extWriteLoop c m page addr n index acc := by
  induction n generalizing index acc with
  | zero => rfl
  | succ n ih => simp only [Core.extWriteLoopR, Core.extWriteLoop, writeR_none, ih]

theorem extReadLoopR_none (k : Nat) (addr : U8) (count : U16) (acc : List U8) (w : W) :
    Core.extReadLoopR c (fun _ => []) k addr count acc w = Core.extReadLoop c w.v.ext.page k addr count acc w := by
  induction k generalizing addr count acc w with
  | zero => rfl
  | succ k ih =>
    unfold Core.extReadLoopR Core.extReadLoop
    simp only [bind_run, get_run, readR_none]
    have hn : (Core.readRegister c w.v.ext.page addr w).2.v.ext = w.v.ext := read_same c _ _ w .ext (by decide)
    generalize Core.readRegister c w.v.ext.page addr w = x at hn
    rw [← hn]
    split
    · exact ih _ _ _ _
    · rfl

theorem extR_none : Core.extendedPageReadRegisterR c (fun _ => []) = Core.extendedPageReadRegister c := by
  funext w
  unfold Core.extendedPageReadRegisterR Core.extendedPageReadRegister
  simp only [bind_run, get_run, whenM_run]
  split
  · rw [extReadLoopR_none]
    have hn : (Core.extReadLoop c w.v.ext.page 4 w.v.ext.addr w.v.ext.count
        [w.v.ext.seq, wordMsb w.v.ext.page, wordLsb w.v.ext.page, w.v.ext.addr] w).2.v.nick = w.v.nick :=
      (Foot.extReadLoop (c := c) (bad := True) 4 _ _ _ w).same .nick (by decide)
    generalize Core.extReadLoop c w.v.ext.page 4 w.v.ext.addr w.v.ext.count
        [w.v.ext.seq, wordMsb w.v.ext.page, wordLsb w.v.ext.page, w.v.ext.addr] w = x at hn
    rw [← hn]
    rfl
  · rfl

theorem withIdle_none {α : Type} (m : M α) : Core.withIdle c (fun _ => []) m = m := by
  funext w
  unfold Core.withIdle
  simp only [bind_run, get_run, callback_none, whenM_run]
  split <;> rfl

theorem protoR_none (m : Msg) : Core.handleProtocolClassTypeR c (fun _ => []) m = Core.handleProtocolClassTypeC c (fun _ => []) m := by
  have hC : Core.handleProtocolClassTypeC c (fun _ => []) m = Core.handleProtocolClassType c m := by
    funext w
    unfold Core.handleProtocolClassTypeC
    rw [callback_none, bind_run, whenM_run]
    split <;> rfl
  rw [hC]
  unfold Core.handleProtocolClassTypeR
  split
  case h_11 => exact hC
  all_goals (rename_i ht; unfold Core.handleProtocolClassType; rw [ht])
  · exact withIdle_none c _
  · simp only [Core.handleReadRegisterR, Core.handleReadRegister, readR_none]
  · simp only [Core.handleWriteRegisterR, Core.handleWriteRegister, writeR_none]
  · unfold Core.handleEnterBootLoaderModeR Core.handleEnterBootLoaderMode
    rw [withIdle_none]
    rfl
  · exact handlePageReadR_none c m
  · simp only [Core.handlePageWriteR, Core.handlePageWrite, pageWriteLoopR_none]
  · simp only [Core.handleIncrementRegisterR, Core.handleIncrementRegister, readR_none, writeR_none]
  · simp only [Core.handleDecrementRegisterR, Core.handleDecrementRegister, readR_none, writeR_none]
  · simp only [Core.handleExtendedPageReadRegisterR, Core.handleExtendedPageReadRegister, extR_none]
  · simp only [Core.handleExtendedPageWriteRegisterR, Core.handleExtendedPageWriteRegister, extWriteLoopR_none]

theorem stepOpR_none (op : Op) : stepOpR c (fun _ => []) op = stepOpC c (fun _ => []) op := by
  have hev : ∀ m, Core.activeEventR c (fun _ => []) m = Core.activeEventC c (fun _ => []) m := by
    intro m
    unfold Core.activeEventR Core.activeEventC
    rw [protoR_none]
  have hext : Core.activeExtReadR c (fun _ => []) = Core.activeExtRead c := by
    unfold Core.activeExtReadR Core.activeExtRead
    rw [extR_none]
  have hst : ∀ rx, Core.stateActiveR c (fun _ => []) rx = Core.stateActiveC c (fun _ => []) rx := by
    intro rx
    unfold Core.stateActiveR Core.stateActiveC
    rw [hext]
    cases rx with
    | none => rfl
    | some m =>
      have e : Core.activeEventOptR c (fun _ => []) (some m) = Core.activeEventOptC c (fun _ => []) (some m) := hev m
      rw [e]
  cases op with
  | process rx =>
    have : Core.processR c (fun _ => []) rx = Core.processC c (fun _ => []) rx := by
      have hd : ∀ r, Core.dispatchR c (fun _ => []) r = Core.dispatchC c (fun _ => []) r := by
        intro r
        funext w
        unfold Core.dispatchR Core.dispatchC
        simp only [bind_run, get_run, hst]
        cases hs : w.v.st with
        | active => rfl
        | init =>
          simp only [withIdle_none, Core.dispatch, bind_run, get_run, hs]
        | reset =>
          simp only [Core.stateResetR, Core.dispatch, bind_run, get_run, hs, callback_none, whenM_run]
          split <;> rfl
        | _ => rfl
      unfold Core.processR Core.processC
      simp only [hd]
    show (do let _ ← Core.processR c (fun _ => []) rx : M Unit) = (do let _ ← Core.processC c (fun _ => []) rx : M Unit)
    rw [this]
  | init ok =>
    funext w
    have h := initR_split c (fun _ => []) ok w
    rw [callback_none, whenM_run] at h
    refine Prod.ext rfl ?_
    rw [h]
    split <;> rfl
  | _ => rfl

/-- C84: without calls in callbacks and register functions this is the node of the other properties. -/
theorem C84_reg_none (ops : List Op) (w : W) : runOpsR c (fun _ => []) ops w = runOps c ops w := by
  rw [← C84_none]
  induction ops generalizing w with
  | nil => rfl
  | cons op ops ih =>
    show runOpsR c (fun _ => []) ops _ = runOpsC c (fun _ => []) ops _
    rw [stepOpR_none]
    exact ih _

end none

section
variable {c : Ctx} (h : GoodCfg c) {cb : Callbacks} (hcb : CbOk cb) (ok : Tmr → Bool) (ps : Nat → U8) (ops : List Op)
  (hops : ∀ op ∈ ops, op.Ok)
include h hcb hops

/-- C84, partial as C45: with any calls in callbacks and register functions, every frame transmitted is either one the application
asked for, or has at most 8 data bytes, the configured hard-coded flag, one of the 8 priorities, a class below 512, and as origin the
nickname stored at that time. -/
theorem C84_reg_frames_partial :
    Always (fun mem o => ∀ m r, o = .tx m r → .sendEvent m ∈ ops ∨ (∃ n, .sendEvent m ∈ cb n) ∨
      ((m.oAddr = mem (Ps.addrNickname c) ∨ mem (Ps.addrNickname c) = 0xFF ∧ m.cls = 0 ∧ (m.typ = 26 ∨ m.typ = 39)) ∧
        m.hard = c.hardCoded ∧ m.prio.toNat < 8 ∧ m.cls.toNat < 512 ∧ m.size.toNat ≤ 8)) ps (nodeR c cb ok ps ops).out := by
  obtain ⟨t, L, hL, h1, -, -, h4, -⟩ := history_traceR h.notBad h.lb hcb ok ops hops (powerUp ps)
  have : (nodeR c cb ok ps ops).out = t := h1
  rw [this]
  refine Always.mono h4 ?_
  rintro mem o ho m r rfl
  rcases ho with ho | ho
  · rcases hL m ho with h | h
    · exact .inl h
    · exact .inr (.inl h)
  · exact .inr (.inr ho)

/-- C84: the nickname in use stays the stored one, also if a register function restores the factory settings or begins a discovery. -/
theorem C84_reg_nickname_stored : (nodeR c cb ok ps ops).v.nick = (nodeR c cb ok ps ops).ps (Ps.addrNickname c) := by
  obtain ⟨t, L, -, -, -, h3, -⟩ := history_traceR h.notBad h.lb hcb ok ops hops (powerUp ps)
  exact h3

/-- C84: the write protection holds. -/
theorem C84_reg_write_protection :
    Always (fun mem o => (∀ a b, o = .psW a b → Ps.addrDm c ≤ a → writeEnable (mem (Ps.addrFlags c)) = true) ∧
      (∀ p a v r, o = .appWrite p a v r → writeEnable (mem (Ps.addrFlags c)) = true)) ps (nodeR c cb ok ps ops).out := by
  obtain ⟨t, L, -, h1, -, -, h4, -⟩ := history_traceR h.notBad h.lb hcb ok ops hops (powerUp ps)
  have : (nodeR c cb ok ps ops).out = t := h1
  rw [this]
  refine Always.mono h4 ?_
  intro mem o ho
  refine ⟨?_, ?_⟩
  · rintro a b rfl; exact ho.2
  · rintro p a v r rfl; exact ho

/-- C84: no access out of bounds (of memory, persistent memory, loopback storage, rule buffer). -/
theorem C84_reg_no_out_of_bounds_partial :
    (nodeR c cb ok ps ops).ub = false ∧ ∀ a b, .psW a b ∈ (nodeR c cb ok ps ops).out → a < Ps.addrNext c := by
  obtain ⟨t, L, -, h1, -, -, h4, h5, -⟩ := history_traceR h.notBad h.lb hcb ok ops hops (powerUp ps)
  refine ⟨h5, ?_⟩
  intro a b hm
  have : (nodeR c cb ok ps ops).out = t := h1
  rw [this] at hm
  obtain ⟨pre, post, he⟩ := List.append_of_mem hm
  exact (h4 pre _ post he).1

end

/-- The decision matrices, behind the handler of an event. -/
def matrices (c : Ctx) (cb : Callbacks) (m : Msg) : M Unit := do
  whenM c.dm (Dm.executeActionsC c cb m)
  whenM c.dmNg (DmNg.executeActionsC c cb m)

/-- A cycle of an active node which receives a protocol event, without notification of the application. -/
theorem process_protoR (c : Ctx) (hpn : c.protoNotify = false) (cb : Callbacks) (rx : Option Msg) (m : Msg) (w : W) (ha : w.v.st = .active)
    (hr : (readMessage c rx w).1 = some m) (hm : m.cls = 0) : (stepOpR c cb (.process rx) w).2 =
      (Core.activeExtReadR c cb (Core.activeHeartbeatC c cb (matrices c cb m
        (Core.handleProtocolClassTypeR c cb m (preProcess c rx w).2).2).2).2).2 := by
  have hst : (preProcess c rx w).2.v.st = .active := (pre_same c rx w .st (by decide)).trans ha
  show (Core.processR c cb rx w).2 = _
  rw [processR_split, preProcess_rx, hr]
  generalize (preProcess c rx w).2 = w1 at hst
  have e2 : Core.activeEventR c cb m = (do
      Core.handleProtocolClassTypeR c cb m
      whenM c.dm (Dm.executeActionsC c cb m)
      whenM c.dmNg (DmNg.executeActionsC c cb m)) := by
    unfold Core.activeEventR
    rw [if_pos (show m.cls = CLASS_PROTOCOL from hm), if_neg (by simp [hpn])]
  unfold Core.dispatchR
  rw [bind_run, get_run]
  simp only [hst]
  unfold Core.stateActiveR Core.activeEventOptR
  simp only [e2]
  rfl

/-- What follows the handler of an event only adds to the trace. -/
theorem rest_outR (c : Ctx) {cb : Callbacks} (hcb : CbOk cb) (m : Msg) (w : W) : ∃ t,
    (Core.activeExtReadR c cb (Core.activeHeartbeatC c cb (matrices c cb m
      w).2).2).2.out = w.out ++ t := by
  have f1 : FootU c True (fun _ => True) (matrices c cb m) :=
    .bind (.whenM fun _ => .dmExecuteActions hcb (fun _ _ => trivial) (fun _ => trivial)) fun _ => .whenM fun _ =>
      .ngExecuteActions hcb (fun _ _ => trivial) (fun _ => trivial) (fun _ => trivial)
  have f2 : FootU c True (fun _ => True) (Core.activeHeartbeatC c cb) := .activeHeartbeat hcb (fun _ _ => trivial)
  have f3 : FootU c True (fun _ => True) (Core.activeExtReadR c cb) := by
    unfold Core.activeExtReadR
    exact .bind .get fun _ => .ite (fun _ => .bind (FootR.extendedPageReadRegister hcb (fun _ _ => trivial)).toU fun _ => .pure _) fun _ => .pure _
  exact StepsB.outs (((f1 w).trans (f2 _)).trans (f3 _))

theorem served {c : Ctx} {page : U16} {addr : U8} (h : appServed c page addr = true) : Core.isAppRegister c page addr = true := by
  have hl : addr.toNat ≤ 0xFF := by omega
  simpa [Core.isAppRegister, appServed, hl] using h

/-- The calls of a callback: they add to the trace, and keep the nickname, or drop it; with calls which do not touch the memory they keep it. -/
theorem callback_out (c : Ctx) {cb : Callbacks} (hcb : CbOk cb) (w : W) : ∃ t, (callback c cb w).2.out = w.out ++ t ∧
    ((callback c cb w).2.v.nick = w.v.nick ∨ (callback c cb w).2.v.nick = 0xFF) ∧
    ((∀ o ∈ cb w, quiet o) → (callback c cb w).2.v.nick = w.v.nick) := by
  obtain ⟨h1, h2⟩ := FootR.callback (c := c) (bad := True) (P := fun _ => True) hcb (fun _ _ => trivial) w
  obtain ⟨t, ht⟩ := StepsB.outs h1
  refine ⟨t, ht, h2, fun hq => ?_⟩
  show (runOps c (cb w) w).v.nick = _
  generalize hl : cb w = l at hq
  clear hl h1 h2 ht t
  induction l generalizing w with
  | nil => rfl
  | cons o l ih =>
    have ho := hq o (by simp)
    refine (ih _ fun x hx => hq x (by simp [hx])).trans ?_
    exact op_same c o (by intro rx e; subst e; exact ho) w .nick (by cases o <;> first | exact ho.elim | simp [opActs, Act.touches])

/-- C84: a read of a register of the application is answered with the value the application has delivered, whatever it does in its
register function, and behind everything it sends there.  The answer is sent from the nickname the node has then: it is the one of before
unless the application has dropped it. -/
theorem C84_reg_read (c : Ctx) (hpn : c.protoNotify = false) {cb : Callbacks} (hcb : CbOk cb) (rx : Option Msg) (m : Msg) (w : W)
    (ha : w.v.st = .active) (hr : (readMessage c rx w).1 = some m) (hm : m.cls = 0 ∧ m.typ = 9 ∧ m.size = 2 ∧ m.data[0] = w.v.nick)
    (happ : appServed c 0 m.data[1] = true) :
    ∃ n r t1 t2, (n = w.v.nick ∨ n = 0xFF) ∧ ((∀ x, ∀ o ∈ cb x, quiet o) → n = w.v.nick) ∧
      (stepOpR c cb (.process rx) w).2.out =
        w.out ++ .appRead 0 m.data[1] (c.appRead w.out.length w.ps 0 m.data[1]) :: t1 ++
          .tx (event c n 3 10 [m.data[1], c.appRead w.out.length w.ps 0 m.data[1]]) r :: t2 := by
  rw [process_protoR c hpn cb rx m w ha hr hm.1]
  have ho : (preProcess c rx w).2.out = w.out := pre_out c rx w
  have hps : (preProcess c rx w).2.ps = w.ps := pre_same c rx w .ps (by decide)
  have hn : (preProcess c rx w).2.v.nick = w.v.nick := pre_same c rx w .nick (by decide)
  generalize (preProcess c rx w).2 = w1 at ho hps hn
  have hh : Core.handleProtocolClassTypeR c cb m = Core.handleReadRegisterR c cb m := by
    unfold Core.handleProtocolClassTypeR
    rw [hm.2.1]
    rfl
  obtain ⟨t1, h1, h2, h3⟩ := callback_out c hcb (addOut (.appRead 0 m.data[1] (c.appRead w1.out.length w1.ps 0 m.data[1])) w1)
  have he : (Core.handleReadRegisterR c cb m w1).2 = sent c (frame c (callback c cb (addOut (.appRead 0 m.data[1] (c.appRead w1.out.length w1.ps 0 m.data[1])) w1)).2 3 10
      [m.data[1], c.appRead w1.out.length w1.ps 0 m.data[1]]) (callback c cb (addOut (.appRead 0 m.data[1] (c.appRead w1.out.length w1.ps 0 m.data[1])) w1)).2 := by
    unfold Core.handleReadRegisterR Core.readRegisterR Core.sendRegisterReadWriteRsp
    simp only [bind_run, get_run, whenM_run, pure_run]
    rw [if_pos ⟨hm.2.2.1, hn.trans hm.2.2.2.symm⟩, if_pos (served happ), appServed_run happ]
    simp only
    rw [txVoid_run _ _ _ _ (by simp)]
    rfl
  obtain ⟨t2, h4⟩ := rest_outR c hcb m (Core.handleReadRegisterR c cb m w1).2
  rw [hh, h4, he, sent_out, h1]
  refine ⟨(callback c cb (addOut (.appRead 0 m.data[1] (c.appRead w1.out.length w1.ps 0 m.data[1])) w1)).2.v.nick,
    c.txOk ((addOut (.appRead 0 m.data[1] (c.appRead w1.out.length w1.ps 0 m.data[1])) w1).out ++ t1).length, t1, t2, ?_, ?_, ?_⟩
  · rw [← hn]; exact h2
  · intro hq; rw [← hn]; exact h3 (hq _)
  · rw [← ho, ← hps]
    simp [addOut, frame, event]

/-- C84: a write of a register of the application, with the write protection off: the application gets the value, stores a zone if it
likes, makes its calls, and the value it has delivered is the answer. -/
theorem C84_reg_write (c : Ctx) (hpn : c.protoNotify = false) {cb : Callbacks} (hcb : CbOk cb) (rx : Option Msg) (m : Msg) (w : W)
    (ha : w.v.st = .active) (hr : (readMessage c rx w).1 = some m) (hm : m.cls = 0 ∧ m.typ = 11 ∧ m.size = 3 ∧ m.data[0] = w.v.nick)
    (happ : appServed c 0 m.data[1] = true) (hen : writeEnable (w.ps (Ps.addrFlags c)) = true) :
    ∃ n r z t1 t2, (∀ o ∈ z, storesZone c o) ∧ (n = w.v.nick ∨ n = 0xFF) ∧ ((∀ x, ∀ o ∈ cb x, quiet o) → n = w.v.nick) ∧
      (stepOpR c cb (.process rx) w).2.out =
        w.out ++ .appWrite 0 m.data[1] m.data[2] (c.appWrite w.out.length w.ps 0 m.data[1] m.data[2]) :: (z ++ t1 ++
          .tx (event c n 3 10 [m.data[1], c.appWrite w.out.length w.ps 0 m.data[1] m.data[2]]) r :: t2) := by
  rw [process_protoR c hpn cb rx m w ha hr hm.1]
  have ho : (preProcess c rx w).2.out = w.out := pre_out c rx w
  have hps : (preProcess c rx w).2.ps = w.ps := pre_same c rx w .ps (by decide)
  have hn : (preProcess c rx w).2.v.nick = w.v.nick := pre_same c rx w .nick (by decide)
  generalize (preProcess c rx w).2 = w1 at ho hps hn
  have hh : Core.handleProtocolClassTypeR c cb m = Core.handleWriteRegisterR c cb m := by
    unfold Core.handleProtocolClassTypeR
    rw [hm.2.1]
    rfl
  have hacc : accepted c w1 0 m.data[1] = true := by
    unfold accepted
    rw [if_neg (appServed_iff.1 happ).1, hps]
    exact hen
  have hw := writeRegister_app hacc happ m.data[2]
  have hst := appStores_trace c w1.out.length 0 m.data[1] m.data[2]
  have hout : (writeAll (Core.appStores c w1.out.length 0 m.data[1] m.data[2])
      { w1 with out := w1.out ++ [.appWrite 0 m.data[1] m.data[2] (c.appWrite w1.out.length w1.ps 0 m.data[1] m.data[2])] }).out =
      w1.out ++ [.appWrite 0 m.data[1] m.data[2] (c.appWrite w1.out.length w1.ps 0 m.data[1] m.data[2])] ++
        traceOf (Core.appStores c w1.out.length 0 m.data[1] m.data[2]) := rfl
  have hnick : (writeAll (Core.appStores c w1.out.length 0 m.data[1] m.data[2])
      { w1 with out := w1.out ++ [.appWrite 0 m.data[1] m.data[2] (c.appWrite w1.out.length w1.ps 0 m.data[1] m.data[2])] }).v.nick =
      w1.v.nick := rfl
  generalize writeAll (Core.appStores c w1.out.length 0 m.data[1] m.data[2])
    { w1 with out := w1.out ++ [.appWrite 0 m.data[1] m.data[2] (c.appWrite w1.out.length w1.ps 0 m.data[1] m.data[2])] } = w2 at hw hout hnick
  obtain ⟨t1, h1, h2, h3⟩ := callback_out c hcb w2
  have he : (Core.handleWriteRegisterR c cb m w1).2 = sent c (frame c (callback c cb w2).2 3 10
      [m.data[1], c.appWrite w1.out.length w1.ps 0 m.data[1] m.data[2]]) (callback c cb w2).2 := by
    unfold Core.handleWriteRegisterR Core.writeRegisterR Core.sendRegisterReadWriteRsp
    simp only [bind_run, get_run, whenM_run, pure_run]
    rw [if_pos ⟨hm.2.2.1, hn.trans hm.2.2.2.symm⟩, hw]
    simp only [served happ, and_self, if_true]
    rw [txVoid_run _ _ _ _ (by simp)]
  obtain ⟨t2, h4⟩ := rest_outR c hcb m (Core.handleWriteRegisterR c cb m w1).2
  rw [hh, h4, he, sent_out, h1, hout]
  refine ⟨(callback c cb w2).2.v.nick, c.txOk (w2.out ++ t1).length, traceOf (Core.appStores c w1.out.length 0 m.data[1] m.data[2]), t1, t2, hst,
    ?_, ?_, ?_⟩
  · rw [← hn, ← hnick]; exact h2
  · intro hq; rw [← hn, ← hnick]; exact h3 (hq _)
  · rw [← ho, ← hps, hout]
    simp [frame, event]

/-- Calls of an example: a register function which sends an event. -/
def regCb : Callbacks := fun w => match w.out.getLast? with
  | some (.appRead _ _ _) | some (.appWrite _ _ _ _) => [.sendEvent (Ex.msg 20 3 5 [0, 3, 4])]
  | _ => []

theorem regCb_ok : CbOk regCb := by
  intro w op h
  unfold regCb at h
  split at h
  · simp only [List.mem_singleton] at h; subst h; trivial
  · simp only [List.mem_singleton] at h; subst h; trivial
  · simp at h

/-- The example node reads its register 16: the application sends an event in its register function, then the value is sent. -/
example : (nodeR Ex.ctx regCb allOk (mem 0x60) [.process none]).v.st = .active ∧ appServed Ex.ctx 0 16 = true ∧
    (nodeR Ex.ctx regCb allOk (mem 0x60) [.process none, .process (some (Ex.msg 0 9 1 [5, 16]))]).out.drop 3 =
      [.appRead 0 16 4, .tx (Ex.msg 20 3 5 [0, 3, 4]) true, .tx (Ex.msg 0 10 5 [16, 4]) true] ∧
    (nodeR Ex.ctx regCb allOk (mem 0x60) [.process none, .process (some (Ex.msg 0 11 1 [5, 16, 7]))]).out.drop 3 =
      [.appWrite 0 16 7 0x5A, .tx (Ex.msg 20 3 5 [0, 3, 4]) true, .tx (Ex.msg 0 10 5 [16, 0x5A]) true] ∧
    (readMessage Ex.ctx (some (Ex.msg 0 9 1 [5, 16])) (nodeR Ex.ctx regCb allOk (mem 0x60) [.process none])).1 = some (Ex.msg 0 9 1 [5, 16]) := by
  decide +kernel

/-- Calls of an example: a register function which restores the factory settings, when its register 20 is read. -/
def restoreCb : Callbacks := fun w => match w.out.getLast? with
  | some (.appRead _ 20 _) => [.restore]
  | _ => []

/-- The responses to extended page reads and the restores of the factory settings, in order: origin and data of a response. -/
def extTrace (t : List Out) : List (Option (U8 × List U8)) := t.filterMap fun
  | .tx m _ => if m.cls = 0 ∧ m.typ = 39 then some (some (m.oAddr, payload m)) else none
  | .appRestore => some none
  | _ => none

/-- C84, violated: a restore of the factory settings in a register function does not end the extended page read which has called it.  The example is asked
for 12 registers of page 0x0709 from register 19; its application restores the factory settings when register 20 is read.  The two registers behind it are read from page 0
but reported as registers of page 0x0709, and the node, which has no nickname any more, sends the rest in the following cycles, from page 0.  src/vscp_core.c:2851 reads the page again, lines
2873-2888 write back the local copy of what was left to read. -/
theorem C84_reg_restore_violated :
    let w := nodeR Ex.ctx restoreCb allOk (mem 0x60) [.process none, .process (some (Ex.msg 0 37 1 [5, 7, 9, 19, 12])), .process none]
    extTrace w.out = [none, some (5, [0, 7, 9, 19, 4, 5, 0xEE, 0xEF]), some (0xFF, [1, 0, 0, 23, 0xF1, 0xF2, 0xF3, 0xF4]),
        some (0xFF, [2, 0, 0, 27, 0xF6, 0xF7, 0xF8, 0xF9])] ∧
      [0x15, 0x16].all (fun a => w.out.any fun o => match o with | .appRead 0 b _ => a == b | _ => false) = true ∧
      w.v.nick = 0xFF := by
  decide +kernel

end Vscp.Callout
