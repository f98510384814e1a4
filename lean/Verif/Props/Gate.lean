/-
Property theorems: features which are configured out (C101).
-/
import Verif.Lemmas.Cycle
import Verif.Lemmas.Types
import Verif.Props.Safety
import Verif.Spec.Gate

namespace Vscp.Gate
open M Vscp.Spec Vscp.Safety Transport

variable {α : Type} {c : Ctx}

/-- The step makes no call which depends on the configuration. -/
def _root_.Vscp.Act.free : Act → Bool
  | .tx | .userTx _ | .idleEntered | .errorEntered | .bootReq | .protoEvent | .action | .timeUpdate | .customHb => false
  | _ => true

theorem free_ok {a : Act} {o : Out} (hs : a.free = true) (ho : a.emits c o) : Enabled c.toCfg o := by
  cases a with
  | restore => obtain ⟨_, _, rfl⟩ | rfl | rfl := ho <;> trivial
  | appWrite => obtain ⟨_, _, _, _, rfl⟩ | ⟨_, _, _, rfl⟩ := ho <;> trivial
  | _ =>
    first
    | (simp [Act.free] at hs; done)
    | (exact ho.elim; done)
    | (obtain rfl := ho; trivial; done)
    | (obtain ⟨_, rfl⟩ := ho; trivial; done)
    | (obtain ⟨_, _, rfl⟩ := ho; trivial; done)
    | (obtain ⟨_, _, _, rfl⟩ := ho; trivial; done)

theorem of_free {A : List Act} {m : M α} (hf : Foot c True A m) (h : A.all Act.free = true) : Calls (Enabled c.toCfg) m := by
  refine .of_foot hf fun a ha o ho => ?_
  exact free_ok (List.all_eq_true.mp h a ha) ho

/-- What holds of frames and what holds of the other calls. -/
theorem of_resp {T : List U8} {A : List Act} {m : M α} (hT : ∀ t ∈ T, t ∈ ([2, 3, 7, 10, 14, 26, 32, 34, 39] : List U8))
    (hr : Calls (Resp T) m) (hf : Foot c True A m) (h : (A.filter (fun a => a != .tx)).all Act.free = true) :
    Calls (Enabled c.toCfg) m := by
  intro w
  obtain ⟨t, h1, h2⟩ := hr w
  obtain ⟨t', h1', h2'⟩ := Steps.outs (hf w)
  have e : t = t' := List.append_cancel_left (h1.symm.trans h1')
  subst e
  refine ⟨t, h1, fun o ho => ?_⟩
  obtain ⟨a, ha, he⟩ := h2' o ho
  by_cases hat : a = .tx
  · subst hat
    obtain ⟨m, ok, rfl⟩ := he
    have := (h2 _ ho).1 m ok rfl
    exact .inl ⟨this.1, hT _ this.2⟩
  · exact free_ok (List.all_eq_true.mp h a (List.mem_filter.mpr ⟨ha, by simpa using hat⟩)) he

theorem frame (m : Msg) (h : Enabled c.toCfg (.tx m true)) : Calls (Enabled c.toCfg) (writeMessage c m) := by
  intro w
  obtain ⟨tp, ub, t, ht, hc⟩ := writeMessage_frame c m w
  rw [ht]
  refine ⟨t, rfl, ?_⟩
  rcases hc with rfl | ⟨rfl, -⟩
  · simp only [List.mem_singleton, forall_eq]
    exact h
  · simp

theorem tx {prio typ : U8} {l : List U8} (h : typ ∈ ([2, 3, 7, 10, 14, 26, 32, 34, 39] : List U8)) :
    Calls (Enabled c.toCfg) (Core.tx c prio typ l) := .bind .get fun _ => frame _ (.inl ⟨rfl, h⟩)

theorem txVoid {prio typ : U8} {l : List U8} (h : typ ∈ ([2, 3, 7, 10, 14, 26, 32, 34, 39] : List U8)) :
    Calls (Enabled c.toCfg) (Core.txVoid c prio typ l) := .bind (tx h) fun _ => .pure _

theorem idle : Calls (Enabled c.toCfg) (Core.changeToStateIdle c) := by
  unfold Core.changeToStateIdle
  refine .bind .get fun _ => .whenM fun _ => .bind (.emit trivial) fun _ => .bind (.setV _) fun _ => .whenM fun h => .emit h

theorem error : Calls (Enabled c.toCfg) (Core.changeToStateError c) := by
  unfold Core.changeToStateError
  refine .bind .get fun _ => .whenM fun _ => .bind (.emit trivial) fun _ => .bind (.setV _) fun _ => .whenM fun h => .emit h

theorem nick {n : U8} : Calls (Enabled c.toCfg) (Core.writeNicknameId c n) :=
  of_free (.writeNicknameId (A := [.nick]) (by decide)) (by decide)

theorem init {b : Bool} : Calls (Enabled c.toCfg) (Core.changeToStateInit c b) :=
  of_free (.changeToStateInit (A := [.st .init, .ist, .nick]) (by decide)) (by decide)

theorem start {t : Tmr} {n : U16} : Calls (Enabled c.toCfg) (timerStart t n) :=
  of_free (c := c) (.timerStart (A := [.tm t]) _ (by simp)) (by simp [Act.free])

theorem stop {t : Tmr} : Calls (Enabled c.toCfg) (timerStop t) :=
  of_free (c := c) (.timerStop (A := [.tm t]) (by simp)) (by simp [Act.free])

theorem active : Calls (Enabled c.toCfg) (Core.changeToStateActive c) := by
  unfold Core.changeToStateActive
  exact .bind .get fun _ => .whenM fun _ => .bind (.emit trivial) fun _ => .bind (.setV _) fun _ => .bind (txVoid (by decide)) fun _ =>
    .whenM fun _ => start

theorem reset {t : U8} : Calls (Enabled c.toCfg) (Core.changeToStateReset t) :=
  of_free (c := c) (.changeToStateReset (A := [.st .reset, .sec, .tm .main]) (by decide)) (by decide)

theorem restore : Calls (Enabled c.toCfg) (Core.restoreFactoryDefaultSettings c) :=
  of_free (.restore (A := [.restore]) (by decide)) (by decide)

/-! ### The handlers -/

theorem readRegister (page : U16) (addr : U8) : Calls (Enabled c.toCfg) (Core.readRegister c page addr) :=
  of_free (.readRegister (A := [.alarm, .appRead]) (by decide)) (by decide)

/-- Types without a call which depends on the configuration. -/
theorem handler_plain : ([2, 3, 6, 9, 11, 23, 24, 25, 29, 30, 31, 33, 37, 38].all fun t =>
    ((typeActs t).filter (fun a => a != .tx)).all Act.free) = true := by decide

theorem responses_known : ∀ t : Fin 256, ∀ r ∈ responses (BitVec.ofFin t), r ∈ ([2, 3, 7, 10, 14, 26, 32, 34, 39] : List U8) := by
  decide +kernel

theorem handler (m : Msg) : Calls (Enabled c.toCfg) (Core.handleProtocolClassType c m) := by
  by_cases h1 : m.typ = 1
  · rw [handler1 h1]
    refine .whenM fun hs => ?_
    unfold Core.handleHeartbeat
    refine .whenM fun _ => .bind (of_free (A := []) (.psRead8 _) (by decide)) fun _ => .bind (.whenM fun _ => .bind ?_ fun _ => .bind .get fun _ =>
      .whenM fun _ => init) fun _ => .whenM fun _ => .bind (.setV _) fun _ => .whenM fun h => .emit ⟨hs, h⟩
    exact of_free (.one (A := [.seg]) (a := .seg) (by decide) fun w => ⟨_, rfl⟩) (by decide)
  by_cases h8 : m.typ = 8
  · rw [handler8 h8]
    unfold Core.handleDropNicknameId
    refine .bind .get fun _ => .whenM fun _ => .ite (fun _ => .bind nick fun _ => reset) fun _ => .ite (fun _ =>
      .bind (.whenM fun _ => .bind restore fun _ => .whenM fun _ => nick) fun _ => .ite (fun _ => reset) fun _ =>
      .ite (fun _ => .bind nick fun _ => idle) fun _ => .bind nick fun _ => reset) fun _ => .pure _
  by_cases h12 : m.typ = 12
  · rw [handler12 h12]
    unfold Core.handleEnterBootLoaderMode
    refine .bind .get fun _ => .whenM fun _ => .ite (fun hb => ?_) fun _ => txVoid (by decide)
    refine .bind (of_free (A := []) (.guidRead _) (by decide)) fun _ => .bind (of_free (A := []) (.guidRead _) (by decide)) fun _ =>
      .bind (of_free (A := []) (.guidRead _) (by decide)) fun _ => .bind (of_free (A := []) (.guidRead _) (by decide)) fun _ =>
      .ite (fun _ => txVoid (by decide)) fun _ => .bind idle fun _ => .bind ?_ fun _ => .emit hb
    exact of_free (.one (A := [.boot]) (a := .boot) (by decide) fun w => ⟨hb, _, rfl⟩) (by decide)
  refine of_resp (fun t ht => ?_) (.handler h12) .handlerType ?_
  · exact responses_known ⟨m.typ.toNat, m.typ.isLt⟩ t ht
  · by_cases hm : m.typ.toNat ∈ [2, 3, 6, 9, 11, 23, 24, 25, 29, 30, 31, 33, 37, 38]
    · exact List.all_eq_true.mp handler_plain _ hm
    · have e1 : m.typ.toNat ≠ 1 := fun h => h1 (ofToNat h rfl)
      have e8 : m.typ.toNat ≠ 8 := fun h => h8 (ofToNat h rfl)
      have e12 : m.typ.toNat ≠ 12 := fun h => h12 (ofToNat h rfl)
      simp only [List.mem_cons, List.not_mem_nil, or_false, not_or] at hm
      have : typeActs m.typ.toNat = [] := by
        unfold typeActs
        split <;> simp_all
      rw [this]; rfl

/-! ### The decision matrices -/

theorem actions_only {A : List Act} {m : M α} (h : c.dm = true ∨ c.dmNg = true) (hf : Foot c True A m)
    (hA : (A.filter (fun a => a != .action)).all Act.free = true) : Calls (Enabled c.toCfg) m := by
  refine .of_foot hf fun a ha o ho => ?_
  by_cases hat : a = .action
  · subst hat
    obtain ⟨i, p, m, rfl⟩ := ho
    exact h
  · exact free_ok (List.all_eq_true.mp hA a (List.mem_filter.mpr ⟨ha, by simpa using hat⟩)) ho

/-! ### The states -/

theorem guidDrop (m : Msg) : Calls (Enabled c.toCfg) (Core.handleGuidDropNickname c m) :=
  of_free .handleGuidDropNickname (by decide)

theorem startup (rx : Option Msg) : Calls (Enabled c.toCfg) (Core.stateStartup c rx) := by
  unfold Core.stateStartup
  refine .bind .get fun _ => .ite (fun _ => .ite (fun _ => ?_) fun _ => ?_) fun _ => active
  · cases rx with
    | none => exact .pure _
    | some m => exact .whenM fun _ => guidDrop m
  · exact .bind (of_free (A := []) .getStartUpControl (by decide)) fun _ => .whenM fun _ => init

theorem running {t : Tmr} : Calls (Enabled c.toCfg) (timerRunning t) := of_free (c := c) (A := []) (.timerRunning _) (by decide)

theorem stateInit (rx : Option Msg) : Calls (Enabled c.toCfg) (Core.stateInit c rx) := by
  unfold Core.stateInit
  refine .bind .get fun w => ?_
  cases w.v.ist <;> dsimp only
  · exact .bind (tx (by decide)) fun _ => .whenM fun _ => .bind (.setV _) fun _ => start
  · refine .bind running fun _ => .ite (fun _ => .setV _) fun _ => .whenM fun _ => ?_
    unfold Core.changeToStatePreActive
    exact .setV _
  · exact .bind (tx (by decide)) fun _ => .whenM fun _ => .ite (fun _ => .bind stop fun _ => idle) fun _ => .bind (.setV _) fun _ => start
  · exact .bind running fun _ => .ite (fun _ => .bind nick fun _ => active) fun _ => .whenM fun _ => .bind stop fun _ => .setV _

theorem preActive (rx : Option Msg) : Calls (Enabled c.toCfg) (Core.statePreActive c rx) := by
  unfold Core.statePreActive
  refine .bind running fun _ => .ite (fun _ => init) fun _ => ?_
  cases rx with
  | none => exact .pure _
  | some m => exact .whenM fun _ => .bind stop fun _ => .bind nick fun _ => .bind (txVoid (by decide)) fun _ => active

theorem event (m : Msg) : Calls (Enabled c.toCfg) (Core.activeEvent c m) := by
  unfold Core.activeEvent
  refine .bind (.ite (fun _ => .ite (fun h => ?_) fun _ => handler m) fun _ => .emit trivial) fun _ => .bind (.whenM fun h => ?_) fun _ =>
    .whenM fun h => ?_
  · exact .bind .get fun _ => .bind (.emit h) fun _ => .whenM fun _ => handler m
  · exact actions_only (.inl h) (.dmExecuteActions fun _ => trivial) (by decide)
  · exact actions_only (.inr h) (.ngExecuteActions (fun _ => trivial) fun _ => trivial) (by decide)

theorem heartbeat : Calls (Enabled c.toCfg) (Core.activeHeartbeat c) := by
  unfold Core.activeHeartbeat Core.prepareTxMessage Core.sendEvent
  refine .bind .get fun _ => .bind running fun _ => .whenM fun h => .bind (.ite (fun hc => .emit ⟨h.1, hc⟩) fun hc => ?_) fun _ => start
  refine .bind (of_free (A := []) .zoneRead (by decide)) fun z => .bind (of_free (A := []) .subZoneRead (by decide)) fun s w => ?_
  exact frame (c := c) ⟨3, 20, 9, w.v.nick, c.hardCoded, 3, bytes8 [0, z, s]⟩ (.inr ⟨rfl, rfl, rfl, h.1, by simpa using hc⟩) w

theorem extRead : Calls (Enabled c.toCfg) (Core.activeExtRead c) := by
  unfold Core.activeExtRead Core.extendedPageReadRegister
  refine .bind .get fun _ => .ite (fun _ => .bind (.bind .get fun _ => .whenM fun _ => .bind ?_ fun _ => .bind (tx (by decide)) fun _ =>
    .whenM fun _ => .setV _) fun _ => .pure _) fun _ => .pure _
  exact of_free (.extReadLoop 4 _ _ _) (by decide)

theorem stateReset : Calls (Enabled c.toCfg) Core.stateReset := by
  unfold Core.stateReset
  exact .bind .get fun _ => .bind running fun _ => .whenM fun _ => .bind (.setV _) fun _ => .bind .get fun _ =>
    .ite (fun _ => .bind (.emit trivial) fun _ => .setV _) fun _ => start

theorem dispatch (rx : Option Msg) : Calls (Enabled c.toCfg) (Core.dispatch c rx) := by
  unfold Core.dispatch
  refine .bind .get fun w => ?_
  cases w.v.st <;> dsimp only
  · exact .bind (startup rx) fun _ => .pure _
  · exact .bind (stateInit rx) fun _ => .pure _
  · exact .bind (preActive rx) fun _ => .pure _
  · unfold Core.stateActive
    refine .bind ?_ fun _ => .bind heartbeat fun _ => .bind extRead fun _ => .pure _
    cases rx with
    | none => exact .pure _
    | some m => exact event m
  · exact .pure _
  · exact .bind stateReset fun _ => .pure _
  · exact .pure _

theorem process (rx : Option Msg) : Calls (Enabled c.toCfg) (Core.process c rx) := by
  intro w
  rw [process_split]
  obtain ⟨t, h1, h2⟩ := dispatch (c := c) (preProcess c rx w).1 (preProcess c rx w).2
  exact ⟨t, by rw [h1, pre_out], h2⟩

theorem coreInit (ok : Tmr → Bool) : Calls (Enabled c.toCfg) (Core.init c ok) := by
  unfold Core.init
  refine .bind (of_free (c := c) (.one (A := [.tmInit]) (a := .tmInit) (by decide) fun w => ⟨ok, rfl⟩) (by decide)) fun _ =>
    .bind (of_free (.one (A := [.lbInit]) (a := .lbInit) (by decide) fun w => rfl) (by decide)) fun _ => .bind (.whenM fun _ => ?_) fun _ =>
    .bind (of_free (A := []) (.psRead8 _) (by decide)) fun _ => .bind (.setV _) fun _ => .bind (.emit trivial) fun _ => .bind start fun _ => .bind ?_ fun _ =>
    .bind (.whenM fun _ => restore) fun _ => .bind (.whenM fun _ => error) fun _ => .pure _
  · unfold Dm.init
    exact of_free (.ite (fun _ => .one (A := [.dmInit]) (a := .dmInit) (by decide) fun w => rfl) fun _ => .pure _) (by decide)
  · unfold Core.checkPersistentMemory
    exact .bind (of_free (A := []) .getStartUpControl (by decide)) fun _ => .pure _

/-! ### Calls of the application -/

theorem sendLoop {P : Out → Prop} (m : Msg) (id level e : U8) (msg : List U8) (hP : ∀ f ok, f.cls = m.cls → f.typ = m.typ → P (.tx f ok)) :
    Calls P (Logger.sendLoop c m id level e msg) := by
  intro w
  fun_induction Logger.sendLoop c m id level e msg generalizing w with
  | case1 e msg ih =>
    rw [bind_run]
    have h1 : ∃ t, (Core.sendEvent c { m with size := 8, data := bytes8 ([id, level, e] ++ msg.take 5) } w).2.out = w.out ++ t ∧
        ∀ o ∈ t, P o := by
      unfold Core.sendEvent
      obtain ⟨tp, ub, t, ht, hc⟩ := writeMessage_frame c { m with size := 8, data := bytes8 ([id, level, e] ++ msg.take 5) } w
      rw [ht]
      refine ⟨t, rfl, ?_⟩
      rcases hc with rfl | ⟨rfl, -⟩
      · simp only [List.mem_singleton, forall_eq]
        exact hP _ _ rfl rfl
      · simp
    obtain ⟨t, ht, hp⟩ := h1
    split
    · rename_i hc
      obtain ⟨t', ht', hp'⟩ := ih _ hc (Core.sendEvent c { m with size := 8, data := bytes8 ([id, level, e] ++ msg.take 5) } w).2
      refine ⟨t ++ t', by rw [ht', ht, List.append_assoc], fun o ho => (List.mem_append.mp ho).elim (hp o) (hp' o)⟩
    · exact ⟨t, ht, hp⟩

theorem log {P : Out → Prop} (id level : U8) (msg : List U8) (hP : ∀ f ok, f.cls = CLASS_LOG → f.typ = 1 → P (.tx f ok)) :
    Calls P (Logger.log c id level msg) := by
  unfold Logger.log
  refine .bind .get fun _ => .whenM fun _ => .whenM fun _ => .bind (fun w => ?_) fun _ => .pure _
  exact sendLoop _ _ _ _ _ hP w

theorem op_calls (op : Op) : Calls (fun o => Enabled c.toCfg o ∨ Asked [op] o) (stepOp c op) := by
  have one : ∀ {α : Type} {m : M α}, Calls (Enabled c.toCfg) m → Calls (fun o => Enabled c.toCfg o ∨ Asked [op] o) m :=
    fun h => h.mono fun _ => .inl
  cases op with
  | init ok => exact .bind (one (coreInit ok)) fun _ => .pure _
  | process rx => exact .bind (one (process rx)) fun _ => .pure _
  | startNodeSegmentInit =>
    simp only [stepOp]
    exact one (of_free (.startNodeSegmentInit (A := [.st .init, .ist, .nick]) (by decide)) (by decide))
  | restore => exact one restore
  | sendEvent m =>
    refine .bind (fun w => ?_) fun _ => .pure _
    unfold Core.sendEvent
    obtain ⟨tp, ub, t, ht, hc⟩ := writeMessage_frame c m w
    rw [ht]
    refine ⟨t, rfl, ?_⟩
    rcases hc with rfl | ⟨rfl, -⟩
    · simp only [List.mem_singleton, forall_eq]
      exact .inr (.inl (by simp))
    · simp
  | log id level msg => exact log _ _ _ fun f ok h1 h2 => .inr (.inr ⟨h1, h2, rfl⟩)
  | logUInt32 id level x => exact log _ _ _ fun f ok h1 h2 => .inr (.inr ⟨h1, h2, rfl⟩)
  | _ => exact fun w => ⟨[], (List.append_nil _).symm, by simp⟩

theorem Asked.mono {ops ops' : List Op} (h : ops ⊆ ops') {o : Out} (ho : Asked ops o) : Asked ops' o := by
  cases o with
  | tx m ok =>
    refine ho.imp (fun hm => h hm) fun ⟨h1, h2, h3⟩ => ⟨h1, h2, ?_⟩
    rw [List.any_eq_true] at h3 ⊢
    obtain ⟨x, hx, hp⟩ := h3
    exact ⟨x, h hx, hp⟩
  | _ => exact ho

/-- What is configured out does not happen: whatever the application calls and whatever is received, a node makes only the calls its
configuration enables, and passes on what the application asks it to send. -/
theorem C101_gate (c : Ctx) (ok : Tmr → Bool) (ps : Nat → U8) (ops : List Op) :
    ∀ o ∈ (node c ok ps ops).out, Enabled c.toCfg o ∨ Asked ops o := by
  suffices gen : ∀ (l l' : List Op) (w : W), l ++ l' = ops → (∀ o ∈ w.out, Enabled c.toCfg o ∨ Asked l o) →
      ∀ o ∈ (runOps c l' w).out, Enabled c.toCfg o ∨ Asked ops o by
    refine gen [] ops _ rfl fun o ho => ?_
    obtain ⟨t, h1, h2⟩ := op_calls (c := c) (.init ok) (powerUp ps)
    rw [h1] at ho
    refine (h2 o (by simpa [powerUp] using ho)).imp_right fun h => ?_
    cases o with
    | tx m ok => exact h.elim (fun h => by simp at h) fun h => by simp at h
    | _ => exact h
  intro l l'
  induction l' generalizing l with
  | nil => intro w e h o ho; rw [List.append_nil] at e; subst e; exact h o ho
  | cons op l' ih =>
    intro w e h
    refine ih (l ++ [op]) _ (by simpa using e) fun o ho => ?_
    obtain ⟨t, h1, h2⟩ := op_calls (c := c) op w
    rw [h1] at ho
    rcases List.mem_append.mp ho with ho | ho
    · exact (h o ho).imp_right (Asked.mono (by simp))
    · exact (h2 o ho).imp_right (Asked.mono (by simp))

/-- Without the matrices nothing is ever executed, without boot loader none is requested, and so on. -/
theorem C101_off (c : Ctx) (ok : Tmr → Bool) (ps : Nat → U8) (ops : List Op) {o : Out} (ho : o ∈ (node c ok ps ops).out) :
    (c.dm = false → c.dmNg = false → ∀ i p m, o ≠ .action i p m) ∧
    (c.bootLoader = false → o ≠ .bootLoaderRequest) ∧
    (c.protoNotify = false → ∀ m b, o ≠ .protoEvent m b) ∧
    (c.idleCallout = false → o ≠ .idleEntered) ∧ (c.errorCallout = false → o ≠ .errorEntered) ∧
    (c.hbSegment = false ∨ c.segTimeCallout = false → ∀ t, o ≠ .timeUpdate t) ∧
    (c.hbNode = false ∨ c.customHb = false → o ≠ .customHeartbeat) ∧
    (c.hbNode = false ∨ c.customHb = true → ∀ m b, o = .tx m b → m.cls = 20 → m.typ = 9 → .sendEvent m ∈ ops) := by
  have h := C101_gate c ok ps ops o ho
  clear ho
  refine ⟨fun h1 h2 i p m e => ?_, fun h1 e => ?_, fun h1 m b e => ?_, fun h1 e => ?_, fun h1 e => ?_, fun h1 t e => ?_, fun h1 e => ?_,
    fun h1 m b e hc ht => ?_⟩ <;> subst e
  · rcases h with (h | h : c.dm = true ∨ c.dmNg = true) | h
    · rw [h1] at h; cases h
    · rw [h2] at h; cases h
    · exact h
  · rcases h with h | h
    · rw [show c.bootLoader = true from h] at h1; cases h1
    · exact h
  · rcases h with h | h
    · rw [show c.protoNotify = true from h] at h1; cases h1
    · exact h
  · rcases h with h | h
    · rw [show c.idleCallout = true from h] at h1; cases h1
    · exact h
  · rcases h with h | h
    · rw [show c.errorCallout = true from h] at h1; cases h1
    · exact h
  · rcases h with h | h
    · have h : c.hbSegment = true ∧ c.segTimeCallout = true := h
      rw [h.1, h.2] at h1
      simp at h1
    · exact h
  · rcases h with h | h
    · have h : c.hbNode = true ∧ c.customHb = true := h
      rw [h.1, h.2] at h1
      simp at h1
    · exact h
  · rcases h with h | h
    · rcases h with h | h
      · rw [hc] at h; exact absurd h.1 (by decide)
      · rcases h1 with h1 | h1 <;> simp [h1] at h
    · rcases h with h | h
      · exact h
      · rw [hc] at h; exact absurd h.1 (by decide)

/-- The same event with and without the feature: the time of the segment master is passed on only if configured. -/
example : .timeUpdate 0x01020304 ∈ (node Ex.ctx allOk (mem 0x60) [.process none, .process (some (Ex.msg 0 1 0 [0, 1, 2, 3, 4]))]).out ∧
    .timeUpdate 0x01020304 ∉ (node { Ex.ctx with segTimeCallout := false } allOk (mem 0x60)
      [.process none, .process (some (Ex.msg 0 1 0 [0, 1, 2, 3, 4]))]).out := by decide +kernel

/-- The last clause is not idle: a heartbeat of the application goes out although the node sends none itself. -/
example : ∃ o ∈ (node { Ex.ctx with hbNode := false } allOk (mem 0x60) [.sendEvent ⟨3, 20, 9, 5, false, 3, bytes8 [0, 3, 4]⟩]).out,
    o = .tx ⟨3, 20, 9, 5, false, 3, bytes8 [0, 3, 4]⟩ true := ⟨_, by decide +kernel, rfl⟩

end Vscp.Gate
