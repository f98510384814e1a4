/-
Footprints with calls from inside of callbacks.
-/
import Verif.Model.Callout
import Verif.Lemmas.Trace

namespace Vscp
open M Spec

/-- The application sends the event in a callback. -/
def Sends (cb : Callbacks) (m : Msg) : Prop := ∃ n, .sendEvent m ∈ cb n

/-- Only calls which are possible in a callback. -/
def CbOk (cb : Callbacks) : Prop := ∀ n, ∀ op ∈ cb n, op.inCallback

/-- Steps of the framework in `B`, and transmissions of events which satisfy `P` for the application. -/
def StepsB (B : List Act) (c : Ctx) (bad : Prop) (P : Msg → Prop) (w w' : W) : Prop :=
  ∃ L : List Msg, (∀ m ∈ L, P m) ∧ Steps c bad (B ++ L.map .userTx) w w'

namespace StepsB
variable {B : List Act} {c : Ctx} {bad : Prop} {P Q : Msg → Prop}

theorem of {A : List Act} (hA : A ⊆ B) {w w' : W} (h : Steps c bad A w w') : StepsB B c bad P w w' :=
  ⟨[], by simp, h.mono fun _ hx => List.mem_append_left _ (hA hx)⟩

theorem refl (w : W) : StepsB B c bad P w w := ⟨[], by simp, .refl w⟩

theorem trans {w w' w'' : W} (h : StepsB B c bad P w w') (h' : StepsB B c bad P w' w'') : StepsB B c bad P w w'' := by
  obtain ⟨L, h1, h2⟩ := h
  obtain ⟨L', h1', h2'⟩ := h'
  refine ⟨L ++ L', ?_, Steps.trans (h2.mono ?_) (h2'.mono ?_)⟩
  · intro m hm
    rcases List.mem_append.mp hm with hm | hm
    · exact h1 m hm
    · exact h1' m hm
  all_goals
    intro x hx
    rw [List.map_append]
    simp only [List.mem_append] at hx ⊢
    rcases hx with hx | hx
    · exact .inl hx
    · first | exact .inr (.inl hx) | exact .inr (.inr hx)

theorem mono (hPQ : ∀ m, P m → Q m) {w w' : W} (h : StepsB B c bad P w w') : StepsB B c bad Q w w' := by
  obtain ⟨L, h1, h2⟩ := h
  exact ⟨L, fun m hm => hPQ m (h1 m hm), h2⟩

end StepsB

/-- The steps of the calls which are possible in callbacks, and of what follows the handler of an event in a cycle. -/
def tailActs : List Act :=
  [.tx, .nick, .restore, .st .init, .ist, .alarmOr, .epochSet, .hb, .errClr, .lg, .event, .action, .ngVars, .ub, .customHb, .tm .heartbeat, .alarm, .appRead, .ext]

/-- A function makes only such steps. -/
def FootB (B : List Act) (c : Ctx) (bad : Prop) (P : Msg → Prop) {α : Type} (m : M α) : Prop := ∀ w, StepsB B c bad P w (m w).2

namespace FootB
variable {B : List Act} {c : Ctx} {bad : Prop} {P : Msg → Prop} {α β : Type}

theorem of {A : List Act} {m : M α} (h : Foot c bad A m) (hA : A ⊆ B) : FootB B c bad P m := fun w => .of hA (h w)
theorem pure (a : α) : FootB B c bad P (pure a : M α) := fun w => .refl w
theorem get : FootB B c bad P M.get := fun w => .refl w
theorem bind {m : M α} {f : α → M β} (h : FootB B c bad P m) (h' : ∀ a, FootB B c bad P (f a)) : FootB B c bad P (m >>= f) :=
  fun w => (h w).trans (h' _ _)
theorem ite {p : Prop} [Decidable p] {m m' : M α} (h : p → FootB B c bad P m) (h' : ¬p → FootB B c bad P m') :
    FootB B c bad P (if p then m else m') := by
  split
  · exact h ‹_›
  · exact h' ‹_›
theorem whenM {p : Prop} [Decidable p] {m : M Unit} (h : p → FootB B c bad P m) : FootB B c bad P (whenM p m) :=
  .ite h fun _ => .pure _
theorem forUp {f : Nat → M Unit} (h : ∀ i, FootB B c bad P (f i)) (n : Nat) : FootB B c bad P (forUp f n) := by
  induction n with
  | zero => exact .pure _
  | succ n ih => exact .bind ih fun _ => h _

/-- One call which is possible in a callback. -/
theorem op (op : Op) (h : op.inCallback) (hm : ∀ m, op = .sendEvent m → P m) (hB : tailActs ⊆ B := by decide) : FootB B c bad P (stepOp c op) := by
  cases op with
  | init | process | tick => exact absurd h id
  | startNodeSegmentInit => exact .of (.startNodeSegmentInit (A := tailActs) (by decide)) hB
  | restore => exact .of (.restore (A := tailActs) (by decide)) hB
  | setAlarm v => exact .of (.one (a := .alarmOr) (A := tailActs) (by decide) fun w => ⟨_, rfl⟩) hB
  | setTime t => exact .of (.one (a := .epochSet) (A := tailActs) (by decide) fun w => ⟨_, rfl⟩) hB
  | enableHeartbeat b => exact .of (.one (a := .hb) (A := tailActs) (by decide) fun w => rfl) hB
  | sendEvent m =>
    exact fun w => ⟨[m], by simpa using hm m rfl, .one (a := .userTx m) (by simp) rfl⟩
  | getTransmitErrors => exact .of (.one (a := .errClr) (A := tailActs) (by decide) fun w => rfl) hB
  | loggerEnable b => exact .of (.one (a := .lg) (A := tailActs) (by decide) fun w => ⟨_, rfl⟩) hB
  | loggerLevel l => exact .of (.one (a := .lg) (A := tailActs) (by decide) fun w => ⟨_, rfl⟩) hB
  | log id level msg => exact .of Foot.log (.trans (by decide) hB)
  | logUInt32 id level x => exact .of Foot.log (.trans (by decide) hB)

theorem callback {cb : Callbacks} (hcb : CbOk cb) (hP : ∀ m, Sends cb m → P m) (hB : tailActs ⊆ B := by decide) : FootB B c bad P (callback c cb) := by
  intro w
  have key : ∀ (l : List Op), (∀ o ∈ l, o.inCallback ∧ ∀ m, o = .sendEvent m → P m) → ∀ w, StepsB B c bad P w (runOps c l w) := by
    intro l
    induction l with
    | nil => intro _ w; exact .refl w
    | cons o l ih =>
      intro h w
      exact (op o (h o (by simp)).1 (h o (by simp)).2 hB w).trans (ih (fun x hx => h x (by simp [hx])) _)
  refine key _ (fun o ho => ⟨hcb _ o ho, ?_⟩) w
  rintro m rfl
  exact hP m ⟨_, ho⟩

variable {cb : Callbacks} (hcb : CbOk cb) (hP : ∀ m, Sends cb m → P m)
include hcb hP

theorem dmExecRow {m : Msg} {i : Nat} (hB : tailActs ⊆ B := by decide) : FootB B c bad P (Dm.execRowC c cb m i) := by
  unfold Dm.execRowC
  refine .bind (.of (A := []) ?_ (List.nil_subset _)) fun _ => .ite (fun _ => .bind (.of (A := []) ?_ (List.nil_subset _)) fun _ =>
    .bind (.of (A := []) ?_ (List.nil_subset _)) fun _ => .bind (.of (A := []) .zoneRead (List.nil_subset _)) fun _ =>
    .bind (.of (A := []) .subZoneRead (List.nil_subset _)) fun _ =>
    .bind (.whenM fun h => absurd (Util.zoneIndex_next _ _ h.2.1) h.2.2) fun _ => ?_) fun _ => .pure _
  · unfold Dm.isRowEnabled
    exact .bind (.readIdx _ _ _) fun _ => .pure _
  · unfold Dm.readRow
    refine .bind ?_ fun _ => ?_
    · unfold Ps.readDmMultiple
      exact .ite (fun _ => .map (.of_eq fun _ => rfl)) fun _ => .pure _
    · split <;> exact .pure _
  · refine .ite (fun _ => ?_) fun _ => .pure _
    unfold Dm.readExtRow
    refine .bind ?_ fun _ => ?_
    · unfold Ps.readDmExtMultiple
      exact .ite (fun _ => .map (.of_eq fun _ => rfl)) fun _ => .pure _
    · split <;> exact .pure _
  · split
    · exact .bind (.of (.one (a := .action) (A := [.action]) (by decide) fun w => ⟨_, _, _, rfl⟩) (.trans (by decide) hB)) fun _ =>
        .callback hcb hP hB
    · exact .pure _

theorem dmExecuteActions {m : Msg} (h : 255 < c.dmRows → bad) (hB : tailActs ⊆ B := by decide) : FootB B c bad P (Dm.executeActionsC c cb m) := by
  unfold Dm.executeActionsC
  refine .ite (fun _ => ?_) fun hr => .of (A := [.ub]) (.markUb (h (by omega)) (by decide)) (.trans (by decide) hB)
  exact .forUp (fun _ => .dmExecRow hcb hP hB) _

theorem ngExecRule {m : Msg} {buf : List U8} (hbuf : bad ∨ DmNg.BufOk buf) (hb : 8 < m.size.toNat → bad) (hB : tailActs ⊆ B := by decide) :
    FootB B c bad P (DmNg.execRuleC c cb buf m) := by
  have act : ∀ i p, FootB B c bad P (do emit (.action i p m); Vscp.callback c cb) := fun i p =>
    .bind (.of (.one (a := .action) (A := [.action]) (by decide) fun w => ⟨_, _, _, rfl⟩) (.trans (by decide) hB)) fun _ =>
      .callback hcb hP hB
  by_cases hbad : bad
  · have hub : FootB B c bad P markUb := .of (A := [.ub]) (.markUb hbad (by decide)) (.trans (by decide) hB)
    unfold DmNg.execRuleC
    split
    · refine .ite (fun _ => .ite (fun _ => ?_) fun _ => .pure _) fun _ => .pure _
      split
      · exact act _ _
      · exact .pure _
      · exact hub
    · exact hub
  · obtain ⟨hl, h0⟩ : DmNg.BufOk buf := hbuf.resolve_left hbad
    have hm : m.size.toNat ≤ 8 := Nat.le_of_not_lt fun h => hbad (hb h)
    unfold DmNg.execRuleC
    rw [List.getElem?_eq_getElem (by omega : 0 < buf.length), List.getElem?_eq_getElem (by omega : 1 < buf.length),
      List.getElem?_eq_getElem (by omega : 2 < buf.length)]
    dsimp only
    refine .ite (fun h6 => .ite (fun _ => ?_) fun _ => .pure _) fun _ => .pure _
    have h0' : buf[0].toNat ≤ 40 := by
      cases buf with
      | nil => simp at hl
      | cons a l => exact h0
    cases hd : DmNg.getDecisionResult buf (buf[0].toNat - 3) m with
    | none => exact absurd hd (DmNg.getDecisionResult_some hm (by omega))
    | some b =>
      cases b
      · exact .pure _
      · exact act _ _

omit hP in
/-- Calls in callbacks do not touch the variables of the rule interpreter. -/
theorem callback_dm (w : W) : (Vscp.callback c cb w).2.dm = w.dm := by
  have key : ∀ (l : List Op), (∀ o ∈ l, o.inCallback) → ∀ w, (runOps c l w).dm = w.dm := by
    intro l
    induction l with
    | nil => intro _ w; rfl
    | cons o l ih =>
      intro h w
      refine (ih (fun x hx => h x (by simp [hx])) _).trans ?_
      have ho := h o (by simp)
      cases o with
      | init | process | tick => exact absurd ho id
      | startNodeSegmentInit =>
        refine (Foot.startNodeSegmentInit (c := c) (bad := False) (A := [.st .init, .ist, .nick]) (by decide) w).inv
          (P := fun x => x.dm = w.dm) ?_ rfl
        intro a ha x y hs hx
        simp only [List.mem_cons, List.not_mem_nil, or_false] at ha
        rcases ha with rfl | rfl | rfl
        · obtain ⟨_, rfl⟩ := hs; exact hx
        · obtain ⟨_, _, rfl⟩ := hs; exact hx
        · obtain ⟨_, rfl⟩ := hs; exact hx
      | restore =>
        show (Core.restoreFactoryDefaultSettings c w).2.dm = w.dm
        rw [restore_run]
      | sendEvent m =>
        obtain ⟨tp, ub, t, ht, -⟩ := writeMessage_frame c m w
        show (Transport.writeMessage c m w).2.dm = w.dm
        rw [ht]
      | log id level msg =>
        refine (Foot.log (c := c) (bad := False) (id := id) (level := level) (msg := msg) w).inv (P := fun x => x.dm = w.dm) ?_ rfl
        intro a ha x y hs hx
        simp only [List.mem_cons, List.not_mem_nil, or_false] at ha
        subst ha
        obtain ⟨m, -, -, -, rfl⟩ := hs
        obtain ⟨tp, ub, t, ht, -⟩ := writeMessage_frame c m x
        rw [ht]; exact hx
      | logUInt32 id level x =>
        refine (Foot.log (c := c) (bad := False) w).inv (P := fun x => x.dm = w.dm) ?_ rfl
        intro a ha x y hs hx
        simp only [List.mem_cons, List.not_mem_nil, or_false] at ha
        subst ha
        obtain ⟨m, -, -, -, rfl⟩ := hs
        obtain ⟨tp, ub, t, ht, -⟩ := writeMessage_frame c m x
        rw [ht]; exact hx
      | _ => rfl
  exact key _ (hcb _) w

omit hP in
theorem ngExecRule_dm (buf : List U8) (m : Msg) (w : W) : (DmNg.execRuleC c cb buf m w).2.dm = w.dm := by
  unfold DmNg.execRuleC
  generalize buf[0]? = a, buf[1]? = b, buf[2]? = d
  cases a with
  | none => rfl
  | some a =>
    cases b with
    | none => rfl
    | some b =>
      cases d with
      | none => rfl
      | some d =>
        dsimp only
        by_cases h6 : 6 ≤ a.toNat
        · rw [if_pos h6]
          by_cases h0 : b ≠ 0
          · rw [if_pos h0]
            rcases DmNg.getDecisionResult buf (a.toNat - 3) m with _ | _ | _
            · rfl
            · rfl
            · exact callback_dm hcb _
          · rw [if_neg h0]; rfl
        · rw [if_neg h6]; rfl

theorem ngRulesLoop {m : Msg} (hb : 8 < m.size.toNat → bad) (n : Nat) (buf : List U8) (w : W)
    (hbuf : bad ∨ DmNg.BufOk buf) (hn : w.dm.ngCnt.toNat < n) (hB : tailActs ⊆ B := by decide) : StepsB B c bad P w (DmNg.rulesLoopC c cb m n buf w).2 := by
  induction n generalizing buf w with
  | zero => omega
  | succ n ih =>
    unfold DmNg.rulesLoopC
    have hfr := ngExecRule_dm (c := c) hcb buf m w
    rw [bind_run]
    refine StepsB.trans (ngExecRule hcb hP hbuf hb hB w) ?_
    generalize (DmNg.execRuleC c cb buf m w).2 = w1 at hfr
    rw [bind_run]
    refine StepsB.trans (.of (.trans (by decide : _ ⊆ tailActs) hB) (Foot.ngGetNextRule (buf := buf) w1)) ?_
    cases hg : (DmNg.getNextRule c.toCfg buf w1).1 with
    | none => exact .refl _
    | some buf' =>
      have hcnt := Foot.ngGetNextRule_cnt hg
      rw [hfr] at hcnt
      exact ih _ _ (hbuf.imp_right fun h => Foot.ngGetNextRule_spec h hg) (by omega)

theorem ngExecuteActions {m : Msg} (hb : 8 < m.size.toNat → bad) (hg : 40 < (c.garbage 0).toNat → bad) (hB : tailActs ⊆ B := by decide) :
    FootB B c bad P (DmNg.executeActionsC c cb m) := by
  intro w
  unfold DmNg.executeActionsC
  rw [bind_run]
  have hf : Foot c bad [.ngVars, .action, .ub]
      (DmNg.getFirstRule c.toCfg ((List.range DmNg.RULE_MAX_SIZE).map c.garbage)) := by
    unfold DmNg.getFirstRule
    exact .bind (.readIdx _ _ _) fun _ => .bind (.one (a := .ngVars) (by decide) fun w => ⟨_, _, rfl⟩) fun _ =>
      Foot.ngGetNextRule.mono (by decide)
  refine StepsB.trans (.of (.trans (by decide : _ ⊆ tailActs) hB) (hf w)) ?_
  cases hr : (DmNg.getFirstRule c.toCfg ((List.range DmNg.RULE_MAX_SIZE).map c.garbage) w).1 with
  | none => exact .refl _
  | some buf =>
    refine ngRulesLoop hcb hP hb 256 buf _ ?_ (BitVec.isLt _) hB
    by_cases hbad : bad
    · exact .inl hbad
    · refine .inr ?_
      unfold DmNg.getFirstRule at hr
      rw [bind_run, bind_run] at hr
      refine Foot.ngGetNextRule_spec ⟨?_, ?_⟩ hr
      · simp [DmNg.RULE_MAX_SIZE]
      · exact Nat.le_of_not_lt fun h => hbad (hg h)

theorem activeHeartbeat (hB : tailActs ⊆ B := by decide) : FootB B c bad P (Core.activeHeartbeatC c cb) := by
  unfold Core.activeHeartbeatC
  refine .bind .get fun w => .bind (.of (A := []) (.timerRunning _) (List.nil_subset _)) fun _ => .whenM fun _ =>
    .bind (.ite (fun _ => ?_) fun _ => ?_) fun _ => .of (A := [.tm .heartbeat]) (.timerStart _ (by decide)) (.trans (by decide) hB)
  · exact .bind (.of (.one (a := .customHb) (A := [.customHb]) (by decide) fun w => rfl) (.trans (by decide) hB)) fun _ => .callback hcb hP hB
  · refine .of (A := [.tx]) (.bind .zoneRead fun z => .bind .subZoneRead fun s w => ?_) (.trans (by decide) hB)
    refine .one (a := .tx) (by decide) ⟨⟨3, 20, 9, w.v.nick, c.hardCoded, 3, bytes8 [0, z, s]⟩, .inl rfl, ⟨rfl, show (3 : U8).toNat < 8 by decide, show (20 : U16).toNat < 512 by decide⟩, .inl ?_, rfl⟩
    exact Nat.le_of_ble_eq_true rfl

end FootB

/-- Steps of the framework, and transmissions of events which satisfy `P` for the application. -/
abbrev StepsU (c : Ctx) (bad : Prop) (P : Msg → Prop) (w w' : W) : Prop := StepsB nodeActs c bad P w w'

/-- A function makes only such steps. -/
abbrev FootU (c : Ctx) (bad : Prop) (P : Msg → Prop) {α : Type} (m : M α) : Prop := FootB nodeActs c bad P m

namespace FootU
variable {c : Ctx} {bad : Prop} {P : Msg → Prop} {cb : Callbacks} (hcb : CbOk cb) (hP : ∀ m, Sends cb m → P m)
include hcb hP

theorem activeEvent {m : Msg} (hb : 8 < m.size.toNat → bad) (hr : c.dm = true → 255 < c.dmRows → bad)
    (hg : c.dmNg = true → 40 < (c.garbage 0).toNat → bad) : FootU c bad P (Core.activeEventC c cb m) := by
  have proto : FootU c bad P (Core.handleProtocolClassTypeC c cb m) :=
    .bind (.of (.handleProtocolClassType hb) (by decide)) fun _ => .whenM fun _ => FootB.callback hcb hP
  unfold Core.activeEventC
  refine .bind (.ite (fun _ => .ite (fun _ => ?_) fun _ => proto) fun _ => ?_) fun _ => .bind (.whenM fun h => ?_) fun _ =>
    .whenM fun h => ?_
  · exact .bind .get fun _ => .bind (.of (.one (a := .protoEvent) (A := [.protoEvent]) (by decide) fun w => ⟨_, _, rfl⟩)
      (by decide)) fun _ => .bind (FootB.callback hcb hP) fun _ => .whenM fun _ => proto
  · exact .bind (.of (.one (a := .event) (A := [.event]) (by decide) fun w => ⟨_, rfl⟩) (by decide)) fun _ => FootB.callback hcb hP
  · exact .dmExecuteActions hcb hP (hr h)
  · exact .ngExecuteActions hcb hP hb (hg h)

theorem dispatch {rx : Option Msg} (hb : ∀ m, rx = some m → 8 < m.size.toNat → bad)
    (hr : c.dm = true → 255 < c.dmRows → bad) (hg : c.dmNg = true → 40 < (c.garbage 0).toNat → bad) :
    FootU c bad P (Core.dispatchC c cb rx) := by
  unfold Core.dispatchC
  refine .bind .get fun w => ?_
  split
  · unfold Core.stateActiveC
    refine .bind ?_ fun _ => .bind (.activeHeartbeat hcb hP) fun _ => .bind (.of .activeExtRead (by decide)) fun _ => .pure _
    cases rx with
    | none => exact .pure _
    | some m => exact FootU.activeEvent hcb hP (hb m rfl) hr hg
  · exact .of (.dispatch hb hr hg) (by decide)

end FootU

theorem processC_split (c : Ctx) (cb : Callbacks) (rx : Option Msg) (w : W) : Core.processC c cb rx w =
    (((preProcess c rx w).1.isSome || (Core.dispatchC c cb (preProcess c rx w).1 (preProcess c rx w).2).1),
      (Core.dispatchC c cb (preProcess c rx w).1 (preProcess c rx w).2).2) := rfl

theorem stepOpC_steps {c : Ctx} {cb : Callbacks} (hcb : CbOk cb) {op : Op} (hop : op.Ok) {w : W} (h : LbOk c w) :
    StepsU c (cfgBad c) (fun m => op = .sendEvent m ∨ Sends cb m) w (stepOpC c cb op w).2 := by
  have other : ∀ o : Op, o.Ok → StepsU c (cfgBad c) (fun m => o = .sendEvent m ∨ Sends cb m) w (stepOp c o w).2 := by
    intro o ho
    refine ⟨userMsgs [o], ?_, stepOp_steps ho h⟩
    intro m hm
    cases o <;> simp [userMsgs] at hm
    subst hm; exact .inl rfl
  cases op with
  | process rx =>
    show StepsU _ _ _ w (Core.processC c cb rx w).2
    rw [processC_split]
    have hrx : ∀ m, rx = some m → m.size.toNat ≤ 8 := by intro m hm; subst hm; exact hop
    refine StepsB.trans (.of (by decide) (preProcess_steps hrx w)) ?_
    refine FootU.dispatch hcb (fun m hm => .inr hm) ?_ ?_ ?_ _
    · intro m hm h8
      rw [preProcess_rx] at hm
      have := (h.read rx hrx).2.2 m hm
      omega
    · exact fun h1 h2 => .inl ⟨h1, h2⟩
    · exact fun h1 h2 => .inr ⟨h1, h2⟩
  | _ => exact other _ hop

theorem runOpsC_steps {c : Ctx} (hbad : ¬cfgBad c) (hc : c.loopback = true → Transport.LoopbackCfg c) {cb : Callbacks}
    (hcb : CbOk cb) (ops : List Op) (hops : ∀ op ∈ ops, op.Ok) (w : W) (h : LbOk c w) :
    StepsU c (cfgBad c) (fun m => .sendEvent m ∈ ops ∨ Sends cb m) w (runOpsC c cb ops w) := by
  induction ops generalizing w with
  | nil => exact .refl _
  | cons op ops ih =>
    have h1 := stepOpC_steps hcb (hops op (by simp)) h
    have h2 : LbOk c (stepOpC c cb op w).2 := by
      obtain ⟨L, -, hs⟩ := h1
      exact (hs.lbOk hbad hc h).1
    have h3 := ih (fun o ho => hops o (by simp [ho])) _ h2
    refine StepsB.trans (h1.mono ?_) (h3.mono ?_)
    · rintro m (rfl | hm)
      · exact .inl (by simp)
      · exact .inr hm
    · rintro m (hm | hm)
      · exact .inl (by simp [hm])
      · exact .inr hm

/-- The trace of a history which begins with `init`, with calls in callbacks. -/
theorem history_traceC {c : Ctx} (hbad : ¬cfgBad c) (hc : c.loopback = true → Transport.LoopbackCfg c) {cb : Callbacks}
    (hcb : CbOk cb) (ok : Tmr → Bool) (ops : List Op) (hops : ∀ op ∈ ops, op.Ok) (w : W) :
    ∃ t L, (∀ m ∈ L, .sendEvent m ∈ ops ∨ Sends cb m) ∧
      (runOpsC c cb (.init ok :: ops) w).out = w.out ++ t ∧ (runOpsC c cb (.init ok :: ops) w).ps = memAfter w.ps t ∧
      NickOk c (runOpsC c cb (.init ok :: ops) w) ∧ Always (OutOk c L) w.ps t ∧
      (runOpsC c cb (.init ok :: ops) w).ub = w.ub ∧ LbOk c (runOpsC c cb (.init ok :: ops) w) := by
  have e : runOpsC c cb (.init ok :: ops) w = runOpsC c cb ops (Core.init c ok { w with v := { w.v with
      nick := w.ps (Ps.addrNickname c) } }).2 := by
    rw [init_nick]; rfl
  rw [e]
  have h1 := Foot.coreInit (c := c) (bad := cfgBad c) ok { w with v := { w.v with nick := w.ps (Ps.addrNickname c) } }
  have h2 := init_lbOk hc ok { w with v := { w.v with nick := w.ps (Ps.addrNickname c) } }
  obtain ⟨L, hL, h3⟩ := runOpsC_steps hbad hc hcb ops hops _ h2.1
  have h4 := h3.lbOk hbad hc h2.1
  obtain ⟨t1, a1, a2, a3⟩ := h1.trace hbad (user := L) (by intro m hm; simp at hm)
  obtain ⟨t2, b1, b2, b3⟩ := h3.trace hbad (user := L) (by
    intro m hm
    rcases List.mem_append.mp hm with hm | hm
    · exact absurd hm (nodeActs_user m)
    · simpa using hm)
  obtain ⟨a4, a5⟩ := a3 rfl
  obtain ⟨b4, b5⟩ := b3 a4
  refine ⟨t1 ++ t2, L, hL, by rw [b1, a1, List.append_assoc], by rw [b2, a2, memAfter_append], b4, a5.append ?_,
    h4.2.trans h2.2, h4.1⟩
  rw [a2] at b5
  exact b5

/-! ### Cycles of an active node -/

/-- A cycle with a protocol event, if the application is not asked: first the handler of the event. -/
theorem protocol_cycle {c : Ctx} {cb : Callbacks} (hcb : CbOk cb) (hpn : c.protoNotify = false) {rx : Option Msg} {w : W} (ha : (preProcess c rx w).2.v.st = .active)
    {m : Msg} (hr : (preProcess c rx w).1 = some m) (hm : m.cls = 0) :
    StepsB tailActs c True (fun _ => True) (Core.handleProtocolClassType c m (preProcess c rx w).2).2 (Core.processC c cb rx w).2 := by
  rw [processC_split, hr]
  generalize (preProcess c rx w).2 = w1 at *
  have e1 : (Core.dispatchC c cb (some m) w1).2 = (Core.stateActiveC c cb (some m) w1).2 := by
    unfold Core.dispatchC
    simp only [M.bind_run, M.get_run, ha]
  have e2 : Core.activeEventC c cb m = (do
      Core.handleProtocolClassTypeC c cb m
      whenM c.dm (Dm.executeActionsC c cb m)
      whenM c.dmNg (DmNg.executeActionsC c cb m)) := by
    unfold Core.activeEventC
    rw [if_pos (show m.cls = Transport.CLASS_PROTOCOL from hm), if_neg (by rw [hpn]; decide)]
  have hrest : FootB tailActs c True (fun _ => True) (do
      whenM (m.typ = 1 ∧ c.hbSegment = true ∧ 5 ≤ m.size.toNat ∧ c.segTimeCallout = true) (callback c cb)
      whenM c.dm (Dm.executeActionsC c cb m)
      whenM c.dmNg (DmNg.executeActionsC c cb m)
      Core.activeHeartbeatC c cb
      let r ← Core.activeExtRead c
      pure ((some m).isSome || r)) :=
    .bind (.whenM fun _ => .callback hcb fun _ _ => trivial) fun _ =>
      .bind (.whenM fun _ => .dmExecuteActions hcb (fun _ _ => trivial) fun _ => trivial) fun _ =>
      .bind (.whenM fun _ => .ngExecuteActions hcb (fun _ _ => trivial) (fun _ => trivial) fun _ => trivial) fun _ =>
      .bind (.activeHeartbeat hcb fun _ _ => trivial) fun _ => .bind (.of .activeExtRead (by decide)) fun _ => .pure _
  dsimp only
  rw [e1]
  have := hrest (Core.handleProtocolClassType c m w1).2
  have e3 : Core.stateActiveC c cb (some m) w1 = (do
      whenM (m.typ = 1 ∧ c.hbSegment = true ∧ 5 ≤ m.size.toNat ∧ c.segTimeCallout = true) (callback c cb)
      whenM c.dm (Dm.executeActionsC c cb m)
      whenM c.dmNg (DmNg.executeActionsC c cb m)
      Core.activeHeartbeatC c cb
      let r ← Core.activeExtRead c
      pure ((some m).isSome || r) : M Bool) (Core.handleProtocolClassType c m w1).2 := by
    have e4 : Core.activeEventOptC c cb (some m) = Core.activeEventC c cb m := rfl
    unfold Core.stateActiveC
    rw [e4, e2]
    rfl
  rw [e3]
  exact this

/-- Any other cycle. -/
theorem other_cycleC {c : Ctx} {cb : Callbacks} (hcb : CbOk cb) {rx : Option Msg} {w : W} (ha : (preProcess c rx w).2.v.st = .active)
    (hm : ∀ m, (preProcess c rx w).1 = some m → m.cls ≠ 0) :
    StepsB tailActs c True (fun _ => True) (preProcess c rx w).2 (Core.processC c cb rx w).2 := by
  rw [processC_split]
  have e1 : (Core.dispatchC c cb (preProcess c rx w).1 (preProcess c rx w).2).2 = (Core.stateActiveC c cb (preProcess c rx w).1 (preProcess c rx w).2).2 := by
    unfold Core.dispatchC
    simp only [M.bind_run, M.get_run, ha]
  dsimp only
  rw [e1]
  have hf : FootB tailActs c True (fun _ => True) (Core.stateActiveC c cb (preProcess c rx w).1) := by
    unfold Core.stateActiveC
    refine .bind ?_ fun _ => .bind (.activeHeartbeat hcb fun _ _ => trivial) fun _ => .bind (.of .activeExtRead (by decide)) fun _ => .pure _
    cases hr : (preProcess c rx w).1 with
    | none => exact .pure _
    | some m =>
      show FootB tailActs c True (fun _ => True) (Core.activeEventC c cb m)
      unfold Core.activeEventC
      rw [if_neg (show ¬ m.cls = Transport.CLASS_PROTOCOL from hm m hr)]
      exact .bind (.bind (.of (.one (a := .event) (A := [.event]) (by decide) fun w => ⟨_, rfl⟩) (by decide)) fun _ => .callback hcb fun _ _ => trivial) fun _ =>
        .bind (.whenM fun _ => .dmExecuteActions hcb (fun _ _ => trivial) fun _ => trivial) fun _ =>
        .whenM fun _ => .ngExecuteActions hcb (fun _ _ => trivial) (fun _ => trivial) fun _ => trivial
  exact hf _

end Vscp
