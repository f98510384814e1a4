/-
What the elementary steps leave unchanged, and which calls they make.
-/
import Verif.Lemmas.StreamOps

namespace Vscp
open M Spec Transport

/-- Case analysis of one step. -/
macro "step_cases" hs:ident : tactic => `(tactic| (
  first
  | (simp only [Step] at $hs:ident; subst $hs:ident)
  | (obtain ⟨_, heq⟩ := $hs:ident; subst heq)
  | (obtain ⟨_, _, heq⟩ := $hs:ident; subst heq)
  | (obtain ⟨_, _, _, heq⟩ := $hs:ident; subst heq)
  | (obtain ⟨_, _, _, _, heq⟩ := $hs:ident; subst heq)
  | (obtain ⟨_, _, _, _, _, heq⟩ := $hs:ident; subst heq)))

section
variable {c : Ctx} {bad : Prop} {a : Act} {w w' : W}

/-- The components of the state and the steps which change them. -/
inductive Comp
  | nick | st | init | guid | sec | reset | ext | alarm | epoch | hb | page | ps | tm (t : Tmr) | ok | dm | lb | rx | lg
deriving DecidableEq

/-- Steps which may change a component. -/
def Act.touches : Act → Comp → Bool
  | .nick, .nick | .nick, .ps => true
  | .seg, .ps | .flags, .ps | .user, .ps | .boot, .ps => true
  | .restore, .nick | .restore, .ps | .restore, .ext | .restore, .alarm | .restore, .page => true
  | .dmW, .ps | .ngW, .ps | .appWrite, .ps => true
  | .dmIdx, .dm | .ngVars, .dm | .dmInit, .dm => true
  | .alarm, .alarm | .alarmOr, .alarm => true
  | .page, .page => true
  | .ext, .ext => true
  | .guid, .guid => true
  | .st _, .st => true
  | .ist, .init => true
  | .sec, .sec => true
  | .resetReq, .reset => true
  | .epochSet, .epoch => true
  | .tm t, .tm t' => t = t'
  | .tick, .tm _ => true
  | .tmInit, .tm _ | .tmInit, .ok => true
  | .tx, .lb | .userTx _, .lb | .lbRead, .lb | .lbInit, .lb => true
  | .rxVar, .rx => true
  | .lg, .lg => true
  | .hb, .hb => true
  | .initVars, .nick | .initVars, .st | .initVars, .init | .initVars, .reset | .initVars, .rx => true
  | _, _ => false

/-- A component is unchanged. -/
def Comp.same (w w' : W) : Comp → Prop
  | .nick => w'.v.nick = w.v.nick
  | .st => w'.v.st = w.v.st
  | .init => w'.v.ist = w.v.ist ∧ w'.v.probe = w.v.probe
  | .guid => w'.v.guidSt = w.v.guidSt
  | .sec => w'.v.secCnt = w.v.secCnt
  | .reset => w'.v.resetReq = w.v.resetReq
  | .ext => w'.v.ext = w.v.ext
  | .alarm => w'.v.alarm = w.v.alarm
  | .epoch => w'.v.epoch = w.v.epoch
  | .hb => w'.v.hbOn = w.v.hbOn
  | .page => w'.v.page = w.v.page
  | .ps => w'.ps = w.ps
  | .tm t => w'.tm.rem t = w.tm.rem t
  | .ok => w'.tm.ok = w.tm.ok
  | .dm => w'.dm = w.dm
  | .lb => w'.tp.lb = w.tp.lb
  | .rx => w'.v.rx = w.v.rx
  | .lg => w'.lg = w.lg

theorem Comp.same_refl (w : W) (k : Comp) : k.same w w := by cases k <;> simp [Comp.same]

theorem Comp.same_trans {w w' w'' : W} {k : Comp} (h : k.same w w') (h' : k.same w' w'') : k.same w w'' := by
  cases k <;> simp only [Comp.same] at * <;> simp_all

theorem Step.same (hs : Step c bad a w w') (k : Comp) (h : a.touches k = false) : k.same w w' := by
  cases a with
  | tx =>
    obtain ⟨m, -, -, -, rfl⟩ := hs
    obtain ⟨tp, ub, t, ht, -⟩ := writeMessage_frame c m w
    rw [ht]
    cases k <;> first | (simp [Act.touches] at h; done) | (simp [Comp.same]; done)
  | userTx m =>
    simp only [Step] at hs; subst hs
    obtain ⟨tp, ub, t, ht, -⟩ := writeMessage_frame c m w
    rw [ht]
    cases k <;> first | (simp [Act.touches] at h; done) | (simp [Comp.same]; done)
  | lbRead =>
    obtain ⟨rx, -, rfl⟩ := hs
    obtain ⟨tp, ub, ht⟩ := readMessage_frame' c rx w
    rw [ht]
    cases k <;> first | (simp [Act.touches] at h; done) | (simp [Comp.same]; done)
  | lbInit =>
    simp only [Step] at hs; subst hs
    obtain ⟨tp, ub, ht⟩ := tpInit_frame c w
    rw [ht]
    cases k <;> first | (simp [Act.touches] at h; done) | (simp [Comp.same]; done)
  | restore =>
    simp only [Step] at hs; rw [restore_run] at hs; subst hs
    cases k <;> first | (simp [Act.touches] at h; done) | (simp [Comp.same, Vars.restored]; done)
  | appWrite =>
    obtain ⟨-, _, _, _, rfl⟩ := hs
    rw [appWriteRegister_run]
    cases k <;> first | (simp [Act.touches] at h; done) | (simp [Comp.same, writeAll, addOut]; done)
  | tm t =>
    obtain ⟨x, rfl⟩ := hs
    cases k with
    | tm t' =>
      simp only [Act.touches, decide_eq_false_iff_not] at h
      simp only [Comp.same]
      rw [if_neg (Ne.symm h)]
    | _ => simp [Comp.same]
  | _ =>
    step_cases hs
    all_goals cases k <;> first | (simp [Act.touches] at h; done) | (simp [Comp.same, putPs, addOut]; done)

/-- A component no step touches. -/
theorem Steps.same {A : List Act} (hs : Steps c bad A w w') (k : Comp) (h : A.all (fun a => !a.touches k) = true) :
    k.same w w' := by
  refine hs.rel (R := fun w w' => k.same w w') (fun w => Comp.same_refl w k) (fun _ _ _ => Comp.same_trans) ?_
  intro a ha w w' hst
  exact hst.same k (by simpa using List.all_eq_true.mp h a ha)

/-- The calls a step makes. -/
def Act.emits (c : Ctx) (a : Act) (o : Out) : Prop :=
  match a with
  | .tx => ∃ m ok, o = .tx m ok
  | .userTx m => ∃ ok, o = .tx m ok
  | .nick => ∃ b, o = .psW (Ps.addrNickname c) b
  | .seg => ∃ b, o = .psW (Ps.addrSegCrc c) b
  | .flags => ∃ b, o = .psW (Ps.addrFlags c) b
  | .user => ∃ i b, i < 5 ∧ o = .psW (Ps.addrUserId c + i) b
  | .boot => ∃ b, o = .psW (Ps.addrBootFlag c) b
  | .dmW => ∃ i b, i < Ps.sizeDm c ∧ o = .psW (Ps.addrDm c + i) b
  | .ngW => ∃ i b, i < Ps.sizeDmNg c ∧ o = .psW (Ps.addrDmNg c + i) b
  | .restore => (∃ a b, o = .psW a b) ∨ o = .appRestore ∨ o = .portRestore
  | .appWrite => (∃ p a v r, o = .appWrite p a v r) ∨ ∃ a b, (c.zonePs = true ∧ a = Ps.addrZone c ∨ c.subZonePs = true ∧ a = Ps.addrSubZone c) ∧ o = .psW a b
  | .appRead => ∃ p a r, o = .appRead p a r
  | .st _ => ∃ l, o = .lamp l
  | .initVars => o = .lamp .blinkSlow
  | .idleEntered => o = .idleEntered
  | .errorEntered => o = .errorEntered
  | .bootReq => o = .bootLoaderRequest
  | .event => ∃ m, o = .event m
  | .protoEvent => ∃ m h, o = .protoEvent m h
  | .action => ∃ i p m, o = .action i p m
  | .timeUpdate => ∃ t, o = .timeUpdate t
  | .customHb => o = .customHeartbeat
  | .resetReq => o = .resetRequest
  | _ => False

theorem Step.outs (hs : Step c bad a w w') : ∃ t, w'.out = w.out ++ t ∧ ∀ o ∈ t, a.emits c o := by
  cases a with
  | tx =>
    obtain ⟨m, -, -, -, rfl⟩ := hs
    obtain ⟨tp, ub, t, ht, hc⟩ := writeMessage_frame c m w
    rw [ht]
    refine ⟨t, rfl, ?_⟩
    rcases hc with rfl | ⟨rfl, -⟩
    · simp only [List.mem_singleton, forall_eq]; exact ⟨_, _, rfl⟩
    · simp
  | userTx m =>
    simp only [Step] at hs; subst hs
    obtain ⟨tp, ub, t, ht, hc⟩ := writeMessage_frame c m w
    rw [ht]
    refine ⟨t, rfl, ?_⟩
    rcases hc with rfl | ⟨rfl, -⟩
    · simp only [List.mem_singleton, forall_eq]; exact ⟨_, rfl⟩
    · simp
  | lbRead =>
    obtain ⟨rx, -, rfl⟩ := hs
    obtain ⟨tp, ub, ht⟩ := readMessage_frame' c rx w
    rw [ht]
    exact ⟨[], by simp, by simp⟩
  | lbInit =>
    simp only [Step] at hs; subst hs
    obtain ⟨tp, ub, ht⟩ := tpInit_frame c w
    rw [ht]
    exact ⟨[], by simp, by simp⟩
  | restore =>
    simp only [Step] at hs; rw [restore_run] at hs; subst hs
    refine ⟨_, rfl, ?_⟩
    intro o ho
    simp only [List.mem_append, List.mem_cons, List.not_mem_nil, or_false] at ho
    rcases ho with ho | rfl | rfl
    · unfold traceOf at ho
      obtain ⟨x, -, rfl⟩ := List.mem_map.mp ho
      exact .inl ⟨_, _, rfl⟩
    · exact .inr (.inl rfl)
    · exact .inr (.inr rfl)
  | st s =>
    obtain ⟨-, rfl⟩ := hs
    refine ⟨_, rfl, fun o ho => ?_⟩
    cases s <;> first | cases ho; done | exact ⟨_, List.mem_singleton.mp ho⟩
  | user =>
    obtain ⟨i, b, hi, rfl⟩ := hs
    refine ⟨[_], rfl, fun o ho => ⟨i, b, hi, ?_⟩⟩
    simpa using ho
  | dmW =>
    obtain ⟨-, i, b, hi, rfl⟩ := hs
    refine ⟨[_], rfl, fun o ho => ⟨i, b, hi, ?_⟩⟩
    simpa using ho
  | ngW =>
    obtain ⟨-, i, b, hi, rfl⟩ := hs
    refine ⟨[_], rfl, fun o ho => ⟨i, b, hi, ?_⟩⟩
    simpa using ho
  | appWrite =>
    obtain ⟨-, p, a, v, rfl⟩ := hs
    rw [appWriteRegister_run]
    refine ⟨_, List.append_assoc .., fun o ho => ?_⟩
    rcases List.mem_append.mp ho with ho | ho
    · exact .inl ⟨_, _, _, _, List.mem_singleton.mp ho⟩
    · obtain ⟨x, hx, rfl⟩ := List.mem_map.mp ho
      exact .inr ⟨_, _, appStores_mem c _ p a v x hx, rfl⟩
  | _ =>
    step_cases hs
    all_goals first
      | (refine ⟨[], (List.append_nil _).symm, ?_⟩; simp; done)
      | (refine ⟨[_], rfl, ?_⟩; simp only [List.mem_singleton, forall_eq]; exact ⟨_, _, rfl⟩)
      | (refine ⟨[_], rfl, ?_⟩; simp [Act.emits]; done)

theorem Steps.outs {A : List Act} (hs : Steps c bad A w w') :
    ∃ t, w'.out = w.out ++ t ∧ ∀ o ∈ t, ∃ a ∈ A, a.emits c o := by
  refine hs.rel (R := fun w w' => ∃ t, w'.out = w.out ++ t ∧ ∀ o ∈ t, ∃ a ∈ A, a.emits c o) ?_ ?_ ?_
  · exact fun w => ⟨[], by simp, by simp⟩
  · rintro w w' w'' ⟨t, h1, h2⟩ ⟨t', h1', h2'⟩
    refine ⟨t ++ t', by rw [h1', h1, List.append_assoc], ?_⟩
    intro o ho
    exact (List.mem_append.mp ho).elim (h2 o) (h2' o)
  · intro a ha w w' hst
    obtain ⟨t, h1, h2⟩ := hst.outs
    exact ⟨t, h1, fun o ho => ⟨a, ha, h2 o ho⟩⟩

end

/-- Before the state machine only the time, the received event, the loopback queue and the logger settings change. -/
theorem pre_same (c : Ctx) (rx : Option Msg) (w : W) (k : Comp) (h : [Comp.epoch, .tm .epoch, .lb, .rx, .lg].contains k = false) :
    k.same w (preProcess c rx w).2 := by
  obtain ⟨rxv, ep, lg, x, hp⟩ := preProcess_frame c rx w
  obtain ⟨tp, ub, hr⟩ := readMessage_frame' c rx w
  rw [hp, hr]
  cases k with
  | tm t =>
    simp only [Comp.same]
    split
    · rename_i he; subst he; simp at h
    · rfl
  | epoch | lb | rx | lg => simp at h
  | _ => simp [Comp.same]

theorem pre_out (c : Ctx) (rx : Option Msg) (w : W) : (preProcess c rx w).2.out = w.out := by
  obtain ⟨rxv, ep, lg, x, hp⟩ := preProcess_frame c rx w
  obtain ⟨tp, ub, hr⟩ := readMessage_frame' c rx w
  rw [hp, hr]

/-- Steps behind the handling of an event in the active state. -/
def afterActs : List Act :=
  [.ngVars, .action, .ub, .customHb, .tx, .tm .heartbeat, .alarm, .appRead, .ext]

/-- An active node handles a received protocol event, unless the application does so. -/
inductive Handles (c : Ctx) (rx : Option Msg) (w : W) (w2 : W) : Prop
  | handler (m : Msg) (hr : (readMessage c rx w).1 = some m) (hm : m.cls = 0)
      (hn : c.protoNotify = true → c.protoHandled w.out.length = false)
      (h : w2 = (Core.handleProtocolClassType c m (notified c m (preProcess c rx w).2)).2)
  | other (h : ∀ m, (readMessage c rx w).1 = some m → m.cls = 0 → c.protoNotify = true ∧ c.protoHandled w.out.length = true)
      (hs : Steps c True [.protoEvent, .event] (preProcess c rx w).2 w2)

theorem Foot.afterEvent {c : Ctx} {m : Msg} : Foot c True afterActs (afterEvent c m) := by
  unfold Vscp.afterEvent
  refine .bind (.whenM fun h => ?_) fun _ => .bind (.whenM fun h => ?_) fun _ => .bind (.mono .activeHeartbeat (by decide)) fun _ =>
    .bind (.mono .activeExtRead (by decide)) fun _ => .pure _
  · exact .mono (.dmExecuteActions (fun _ => trivial)) (by decide)
  · exact .mono (.ngExecuteActions (fun _ => trivial) (fun _ => trivial)) (by decide)

/-- A cycle of an active node. -/
theorem process_active {c : Ctx} {rx : Option Msg} {w : W} (ha : w.v.st = .active) :
    ∃ w2, Handles c rx w w2 ∧ Steps c True afterActs w2 (Core.process c rx w).2 := by
  have hst : (preProcess c rx w).2.v.st = .active := (pre_same c rx w .st (by decide)).trans ha
  cases hr : (readMessage c rx w).1 with
  | none =>
    refine ⟨(preProcess c rx w).2, .other (by simp [hr]) (.refl _), ?_⟩
    rw [process_split, preProcess_rx, hr]
    generalize (preProcess c rx w).2 = w1 at hst
    have hd : (Core.dispatch c none w1).2 = (Core.activeExtRead c (Core.activeHeartbeat c w1).2).2 := by
      unfold Core.dispatch
      rw [bind_run, get_run]
      simp only [hst]
      rfl
    rw [hd]
    exact Steps.trans (Foot.mono .activeHeartbeat (by decide) _) (Foot.mono .activeExtRead (by decide) _)
  | some m =>
    by_cases hm : m.cls = 0
    · by_cases hn : c.protoNotify = true → c.protoHandled w.out.length = false
      · refine ⟨_, .handler m hr hm hn rfl, ?_⟩
        rw [process_protocol ha (by rw [preProcess_rx, hr]) hm (by rw [pre_out]; exact hn)]
        exact Foot.afterEvent _
      · have hn' : c.protoNotify = true ∧ c.protoHandled w.out.length = true := by
          simpa using hn
        refine ⟨addOut (.protoEvent m true) (preProcess c rx w).2, .other (fun _ _ _ => hn') (.one (a := .protoEvent) (by decide) ⟨_, _, rfl⟩), ?_⟩
        have ho := pre_out c rx w
        rw [process_split, preProcess_rx, hr]
        generalize (preProcess c rx w).2 = w1 at *
        have hd : (Core.dispatch c (some m) w1).2 = (afterEvent c m (addOut (.protoEvent m true) w1)).2 := by
          unfold Core.dispatch
          rw [bind_run, get_run]
          simp only [hst]
          unfold Core.stateActive Core.activeEventOpt Core.activeEvent afterEvent
          dsimp only
          rw [if_pos (show m.cls = Transport.CLASS_PROTOCOL from hm), if_pos hn'.1]
          simp only [bind_run, get_run, emit_run, whenM_run, ho, hn'.2, pure_run, addOut]
          rfl
        rw [hd]
        exact Foot.afterEvent _
    · refine ⟨addOut (.event m) (preProcess c rx w).2, .other (fun m' h1 h2 => ?_) (.one (a := .event) (by decide) ⟨_, rfl⟩), ?_⟩
      · rw [hr] at h1
        simp only [Option.some.injEq] at h1
        subst h1
        exact absurd h2 hm
      · rw [process_split, preProcess_rx, hr]
        generalize (preProcess c rx w).2 = w1 at *
        have hd : (Core.dispatch c (some m) w1).2 = (afterEvent c m (addOut (.event m) w1)).2 := by
          unfold Core.dispatch
          rw [bind_run, get_run]
          simp only [hst]
          unfold Core.stateActive Core.activeEventOpt Core.activeEvent afterEvent
          dsimp only
          rw [if_neg (show ¬ m.cls = Transport.CLASS_PROTOCOL from hm)]
          rfl
        rw [hd]
        exact Foot.afterEvent _

theorem notified_same (c : Ctx) (m : Msg) (w : W) (k : Comp) : k.same w (notified c m w) := by
  unfold notified
  split
  · cases k <;> simp [Comp.same, addOut]
  · exact Comp.same_refl w k

theorem notified_out (c : Ctx) (m : Msg) (w : W) : ∃ t, (notified c m w).out = w.out ++ t ∧ ∀ o ∈ t, ∃ h, o = .protoEvent m h := by
  unfold notified
  split
  · exact ⟨[_], rfl, by simp⟩
  · exact ⟨[], by simp, by simp⟩

/-! ### The handler of an event -/

section
variable {c : Ctx} {m : Msg}

theorem handler1 (h : m.typ = 1) : Core.handleProtocolClassType c m = whenM c.hbSegment (Core.handleHeartbeat c m) := by
  unfold Core.handleProtocolClassType; rw [h]; rfl
theorem handler2 (h : m.typ = 2) : Core.handleProtocolClassType c m = Core.handleNewNodeOnline c m := by
  unfold Core.handleProtocolClassType; rw [h]; rfl
theorem handler3 (h : m.typ = 3) : Core.handleProtocolClassType c m = Core.handleProbeAck c m := by
  unfold Core.handleProtocolClassType; rw [h]; rfl
theorem handler6 (h : m.typ = 6) : Core.handleProtocolClassType c m = Core.handleSetNicknameId c m := by
  unfold Core.handleProtocolClassType; rw [h]; rfl
theorem handler8 (h : m.typ = 8) : Core.handleProtocolClassType c m = Core.handleDropNicknameId c m := by
  unfold Core.handleProtocolClassType; rw [h]; rfl
theorem handler9 (h : m.typ = 9) : Core.handleProtocolClassType c m = Core.handleReadRegister c m := by
  unfold Core.handleProtocolClassType; rw [h]; rfl
theorem handler11 (h : m.typ = 11) : Core.handleProtocolClassType c m = Core.handleWriteRegister c m := by
  unfold Core.handleProtocolClassType; rw [h]; rfl
theorem handler12 (h : m.typ = 12) : Core.handleProtocolClassType c m = Core.handleEnterBootLoaderMode c m := by
  unfold Core.handleProtocolClassType; rw [h]; rfl
theorem handler23 (h : m.typ = 23) : Core.handleProtocolClassType c m = Core.handleGuidDropNickname c m := by
  unfold Core.handleProtocolClassType; rw [h]; rfl
theorem handler24 (h : m.typ = 24) : Core.handleProtocolClassType c m = Core.handlePageRead c m := by
  unfold Core.handleProtocolClassType; rw [h]; rfl
theorem handler25 (h : m.typ = 25) : Core.handleProtocolClassType c m = Core.handlePageWrite c m := by
  unfold Core.handleProtocolClassType; rw [h]; rfl
theorem handler29 (h : m.typ = 29) : Core.handleProtocolClassType c m = Core.handleIncrementRegister c m := by
  unfold Core.handleProtocolClassType; rw [h]; rfl
theorem handler30 (h : m.typ = 30) : Core.handleProtocolClassType c m = Core.handleDecrementRegister c m := by
  unfold Core.handleProtocolClassType; rw [h]; rfl
theorem handler31 (h : m.typ = 31) : Core.handleProtocolClassType c m = Core.handleWhoIsThere c m := by
  unfold Core.handleProtocolClassType; rw [h]; rfl
theorem handler33 (h : m.typ = 33) : Core.handleProtocolClassType c m = Core.handleGetDecisionMatrixInfo c m := by
  unfold Core.handleProtocolClassType; rw [h]; rfl
theorem handler37 (h : m.typ = 37) : Core.handleProtocolClassType c m = Core.handleExtendedPageReadRegister c m := by
  unfold Core.handleProtocolClassType; rw [h]; rfl
theorem handler38 (h : m.typ = 38) : Core.handleProtocolClassType c m = Core.handleExtendedPageWriteRegister c m := by
  unfold Core.handleProtocolClassType; rw [h]; rfl

theorem handlerOther (h : m.typ.toNat ∉ [1, 2, 3, 6, 8, 9, 11, 12, 23, 24, 25, 29, 30, 31, 33, 37, 38]) :
    Core.handleProtocolClassType c m = pure () := by
  unfold Core.handleProtocolClassType
  split
  all_goals first
    | rfl
    | (rename_i e; rw [e] at h; simp at h)

theorem ofToNat {a b : U8} {n : Nat} (h : a.toNat = n) (hb : b.toNat = n) : a = b := BitVec.eq_of_toNat_eq (h.trans hb.symm)

end

end Vscp
