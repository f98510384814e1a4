/-
Footprints of the interface functions, and of histories of calls.
-/
import Verif.Lemmas.FootNode
import Verif.Lemmas.Restore
import Verif.Props.Transport

namespace Vscp
open M Transport

/-- The loopback queue is in order and holds only events with at most 8 data bytes. -/
def LbOk (c : Ctx) (w : W) : Prop :=
  c.loopback = true → ∃ q, LbHolds c w q ∧ ∀ m ∈ q, m.size.toNat ≤ 8

theorem LbOk.congr {c : Ctx} {w w' : W} (h : LbOk c w) (he : w'.tp.lb = w.tp.lb) : LbOk c w' := fun hl => by
  obtain ⟨q, hq, hs⟩ := h hl
  exact ⟨q, LbHolds_congr hq he, hs⟩

theorem LbOk.write {c : Ctx} {w : W} (h : LbOk c w) (m : Msg) :
    LbOk c (writeMessage c m w).2 ∧ (writeMessage c m w).2.ub = w.ub := by
  by_cases hl : c.loopback = true
  · obtain ⟨q, hq, hs⟩ := h hl
    obtain ⟨h1, h2⟩ := writeMessage_queue hl hq m
    refine ⟨fun _ => ⟨_, h1, ?_⟩, h2⟩
    intro x hx
    split at hx
    · rename_i hc
      rcases List.mem_append.mp hx with hx | hx
      · exact hs x hx
      · simp at hx; subst hx; exact hc.1.1
    · exact hs x hx
  · refine ⟨fun h => absurd h hl, ?_⟩
    rw [writeMessage_run, if_neg (by simp [hl])]
    rw [countErr_eq]
    simp [beforeTx, hl]

theorem LbOk.read {c : Ctx} {w : W} (h : LbOk c w) (rx : Option Msg) (hrx : ∀ m, rx = some m → m.size.toNat ≤ 8) :
    LbOk c (readMessage c rx w).2 ∧ (readMessage c rx w).2.ub = w.ub ∧
      ∀ m, (readMessage c rx w).1 = some m → m.size.toNat ≤ 8 := by
  by_cases hl : c.loopback = true
  · obtain ⟨q, hq, hs⟩ := h hl
    obtain ⟨cb, hr, hh⟩ := readMessage_spec hl hq rx
    rw [hr]
    refine ⟨fun _ => ⟨_, hh, ?_⟩, rfl, ?_⟩
    · intro m hm
      split at hm
      · simp at hm
      · rcases List.mem_append.mp hm with hm | hm
        · exact hs m (List.mem_of_mem_tail hm)
        · exact hrx m (by simpa using hm)
    · intro m hm
      cases q with
      | nil => exact hrx m (by simpa using hm)
      | cons e q => simp at hm; subst hm; exact hs _ (by simp)
  · rw [readMessage, if_neg hl]
    exact ⟨fun h => absurd h hl, rfl, hrx⟩

theorem LbOk.init {c : Ctx} (hc : c.loopback = true → LoopbackCfg c) (w : W) :
    LbOk c (Transport.init c w).2 ∧ (Transport.init c w).2.ub = w.ub := by
  by_cases hl : c.loopback = true
  · obtain ⟨cb, hi, hh⟩ := init_spec (hc hl) hl w
    rw [hi]
    exact ⟨fun _ => ⟨[], hh, by simp⟩, rfl⟩
  · rw [Transport.init, if_neg hl]
    exact ⟨fun h => absurd h hl, rfl⟩

/-- The frame of a transmission. -/
theorem writeMessage_frame (c : Ctx) (m : Msg) (w : W) : ∃ tp ub t, (writeMessage c m w).2 =
    { w with tp := tp, ub := ub, out := w.out ++ t } ∧
    (t = [.tx m (writeMessage c m w).1] ∨ t = [] ∧ c.loopback = true ∧ 8 < m.size.toNat) := by
  rw [writeMessage_run]
  split
  · rename_i h
    rw [countErr_eq]
    exact ⟨_, w.ub, [], by simp; rfl, .inr ⟨rfl, h.1, by omega⟩⟩
  · rw [countErr_eq, beforeTx_frame]
    exact ⟨_, _, _, rfl, .inl rfl⟩

theorem readMessage_frame' (c : Ctx) (rx : Option Msg) (w : W) : ∃ tp ub, (readMessage c rx w).2 =
    { w with tp := tp, ub := ub } := ⟨_, _, readMessage_frame c rx w⟩

theorem tpInit_frame (c : Ctx) (w : W) : ∃ tp ub, (Transport.init c w).2 = { w with tp := tp, ub := ub } := by
  unfold Transport.init
  split
  · cases h : Util.cyclicBufferInit (List.replicate c.loopbackNum (default : Msg))
      (BitVec.ofNat 8 (c.loopbackNum * c.sizeofMsg)) (BitVec.ofNat 8 c.sizeofMsg) with
    | none => exact ⟨_, _, rfl⟩
    | some cb => exact ⟨_, _, rfl⟩
  · exact ⟨_, _, rfl⟩

/-- A step which touches neither the queue nor the flag for undefined behaviour. -/
theorem Step.lbOk {c : Ctx} {bad : Prop} (hbad : ¬bad) (hc : c.loopback = true → LoopbackCfg c) {a : Act} {w w' : W}
    (hs : Step c bad a w w') (h : LbOk c w) : LbOk c w' ∧ w'.ub = w.ub := by
  cases a with
  | tx => obtain ⟨m, -, -, -, rfl⟩ := hs; exact h.write m
  | userTx m => simp only [Step] at hs; subst hs; exact h.write m
  | lbRead => obtain ⟨rx, hrx, rfl⟩ := hs; exact ⟨(h.read rx hrx).1, (h.read rx hrx).2.1⟩
  | lbInit => simp only [Step] at hs; subst hs; exact LbOk.init hc w
  | ub => exact absurd hs.1 hbad
  | restore => simp only [Step] at hs; rw [restore_run] at hs; subst hs; exact ⟨h.congr rfl, rfl⟩
  | nick | seg | flags | page | ext | guid | sec | st s | event | timeUpdate | epochSet | tm t | rxVar | lg |
      tick | tmInit | initVars | alarmOr => obtain ⟨_, rfl⟩ := hs; exact ⟨h.congr rfl, rfl⟩
  | user => obtain ⟨_, _, _, rfl⟩ := hs; exact ⟨h.congr rfl, rfl⟩
  | boot => obtain ⟨_, _, rfl⟩ := hs; exact ⟨h.congr rfl, rfl⟩
  | dmW | ngW => obtain ⟨_, _, _, _, rfl⟩ := hs; exact ⟨h.congr rfl, rfl⟩
  | dmIdx => obtain ⟨_, _, rfl⟩ := hs; exact ⟨h.congr rfl, rfl⟩
  | appWrite => obtain ⟨_, _, _, _, rfl⟩ := hs; rw [appWriteRegister_run]; exact ⟨h.congr rfl, rfl⟩
  | appRead => obtain ⟨_, _, _, rfl⟩ := hs; exact ⟨h.congr rfl, rfl⟩
  | ngVars | ist | protoEvent => obtain ⟨_, _, rfl⟩ := hs; exact ⟨h.congr rfl, rfl⟩
  | action => obtain ⟨_, _, _, rfl⟩ := hs; exact ⟨h.congr rfl, rfl⟩
  | resetReq => obtain ⟨_, rfl⟩ := hs; exact ⟨h.congr rfl, rfl⟩
  | alarm | idleEntered | errorEntered | bootReq | customHb | dmInit | hb | errClr =>
    simp only [Step] at hs; subst hs; exact ⟨h.congr rfl, rfl⟩

/-! ### Histories -/

/-- All steps of the interface functions, without the frames sent for the application. -/
def nodeActs : List Act :=
  coreActs ++ [.lbRead, .lbInit, .rxVar, .lg, .tick, .tmInit, .initVars, .dmInit, .alarmOr, .hb, .errClr, .st .error,
    .errorEntered, .tm .epoch]

/-- The frames the application sends. -/
def userMsgs : List Op → List Msg
  | [] => []
  | .sendEvent m :: ops => m :: userMsgs ops
  | _ :: ops => userMsgs ops

/-- Received events have at most 8 data bytes. -/
def Op.Ok : Op → Prop
  | .process (some m) => m.size.toNat ≤ 8
  | _ => True

/-- Configurations for which behaviour is not always defined: a loop over more than 255 rows, and an uninitialised rule
buffer which happens to contain a large size. -/
def cfgBad (c : Ctx) : Prop := (c.dm = true ∧ 255 < c.dmRows) ∨ (c.dmNg = true ∧ 40 < (c.garbage 0).toNat)

theorem preProcess_steps {c : Ctx} {bad : Prop} {rx : Option Msg} (hrx : ∀ m, rx = some m → m.size.toNat ≤ 8) (w : W) :
    Steps c bad [.lbRead, .rxVar, .lg, .epochSet, .tm .epoch] w (preProcess c rx w).2 := by
  unfold preProcess
  rw [bind_run]
  refine Steps.trans (.one (a := .lbRead) (by decide) ⟨rx, hrx, rfl⟩) ?_
  rw [bind_run]
  refine Steps.trans (.one (a := .rxVar) (by decide) ⟨(readMessage c rx w).1.getD (readMessage c rx w).2.v.rx, rfl⟩) ?_
  refine Foot.bind .get (fun _ => .bind (.whenM fun _ => ?_) fun _ => .bind (.mono .epochTick (by decide)) fun _ => .pure _) _
  unfold Logger.handleEvent
  have en : ∀ b, Foot c bad [.lbRead, .rxVar, .lg, .epochSet, .tm .epoch] (Logger.enable b) :=
    fun b => .one (a := .lg) (by decide) fun w => ⟨_, rfl⟩
  have lv : ∀ b, Foot c bad [.lbRead, .rxVar, .lg, .epochSet, .tm .epoch] (Logger.setLogLevel b) :=
    fun b => .one (a := .lg) (by decide) fun w => ⟨_, rfl⟩
  refine .ite (fun _ => .ite (fun _ => .whenM fun _ => ?_) fun _ => .ite (fun _ => .whenM fun _ => ?_) fun _ => .ite (fun _ =>
    .whenM fun _ => ?_) fun _ => .pure _) fun _ => .pure _
  · exact .bind (.psRead8 _) fun _ => .whenM fun _ => en _
  · exact .bind (.psRead8 _) fun _ => .whenM fun _ => en _
  · exact lv _

theorem preProcess_rx {c : Ctx} (rx : Option Msg) (w : W) : (preProcess c rx w).1 = (readMessage c rx w).1 := rfl

theorem Steps.lbOk {c : Ctx} {bad : Prop} (hbad : ¬bad) (hc : c.loopback = true → LoopbackCfg c) {A : List Act} {w w' : W}
    (hs : Steps c bad A w w') (h : LbOk c w) : LbOk c w' ∧ w'.ub = w.ub := by
  refine hs.inv (P := fun x => LbOk c x ∧ x.ub = w.ub) ?_ ⟨h, rfl⟩
  intro a _ x y hxy hp
  obtain ⟨h1, h2⟩ := Step.lbOk hbad hc hxy hp.1
  exact ⟨h1, h2.trans hp.2⟩

theorem process_steps {c : Ctx} {rx : Option Msg} (hrx : ∀ m, rx = some m → m.size.toNat ≤ 8) {w : W} (h : LbOk c w) :
    Steps c (cfgBad c) nodeActs w (Core.process c rx w).2 := by
  rw [process_split]
  refine Steps.trans ((preProcess_steps hrx w).mono (by decide)) ?_
  refine (Foot.dispatch ?_ ?_ ?_).mono (by decide) _
  · intro m hm h8
    rw [preProcess_rx] at hm
    have := (h.read rx hrx).2.2 m hm
    omega
  · exact fun h1 h2 => .inl ⟨h1, h2⟩
  · exact fun h1 h2 => .inr ⟨h1, h2⟩

/-- `init` behind the initialisation of timers and transport layer. -/
theorem coreInit_tail {c : Ctx} {bad : Prop} (ok : Tmr → Bool) (w : W) :
    Steps c bad [.dmInit, .initVars, .tm .epoch, .restore, .st .error, .errorEntered]
      (Transport.init c { w with tm := { rem := fun _ => 0, ok := ok } }).2 (Core.init c ok w).2 := by
  unfold Core.init
  rw [bind_run, bind_run]
  have e : (M.modify (fun w => { w with tm := { rem := fun _ => 0, ok := ok } }) w).2 =
    { w with tm := { rem := fun _ => 0, ok := ok } } := rfl
  rw [e]
  generalize (Transport.init c { w with tm := { rem := fun _ => 0, ok := ok } }).2 = w1
  revert w1
  refine Foot.bind (.whenM fun _ => ?_) fun _ => ?_
  · unfold Dm.init
    exact .ite (fun _ => .one (a := .dmInit) (by decide) fun w => rfl) fun _ => .pure _
  · intro w
    rw [bind_run, bind_run, bind_run]
    refine Steps.trans (.one (a := .initVars) (by decide) ⟨{ w.v.rx with
      cls := Transport.CLASS_PROTOCOL, typ := 0, prio := 7, oAddr := Core.NOT_INIT, hard := false }, rfl⟩) ?_
    refine Foot.bind (.timerStart _ (by decide)) (fun _ => .bind ?_ fun _ =>
      .bind (.whenM fun _ => .restore (by decide)) fun _ => .bind (.whenM fun _ => .changeToStateError (by decide)) fun _ =>
      .pure _) _
    unfold Core.checkPersistentMemory
    exact .bind .getStartUpControl fun _ => .pure _

theorem Foot.coreInit {c : Ctx} {bad : Prop} (ok : Tmr → Bool) :
    Foot c bad [.tmInit, .lbInit, .dmInit, .initVars, .tm .epoch, .restore, .st .error, .errorEntered]
      (Core.init c ok) := by
  intro w
  refine Steps.trans (.one (a := .tmInit) (by decide) ⟨ok, rfl⟩) ?_
  refine Steps.trans (.one (a := .lbInit) (by decide) rfl) ?_
  exact (coreInit_tail ok w).mono (by decide)

theorem Foot.sendLoop {c : Ctx} {bad : Prop} (m : Msg) (id level : U8) (hm : Formed c m) (e : U8) (msg : List U8) (w : W)
    (hn : m.oAddr = w.v.nick) : Steps c bad [.tx] w (Logger.sendLoop c m id level e msg w).2 := by
  fun_induction Logger.sendLoop c m id level e msg generalizing w with
  | case1 e msg ih =>
    rw [bind_run]
    have h1 : Steps c bad [.tx] w (Core.sendEvent c { m with size := 8, data := bytes8 ([id, level, e] ++ msg.take 5) } w).2 :=
      .one (a := .tx) (by decide) ⟨{ m with size := 8, data := bytes8 ([id, level, e] ++ msg.take 5) }, .inl hn, hm,
        .inl (Nat.le_of_ble_eq_true rfl), rfl⟩
    refine Steps.trans h1 ?_
    have h2 : (Core.sendEvent c { m with size := 8, data := bytes8 ([id, level, e] ++ msg.take 5) } w).2.v = w.v := by
      obtain ⟨tp, ub, t, ht, -⟩ := writeMessage_frame c { m with size := 8, data := bytes8 ([id, level, e] ++ msg.take 5) } w
      rw [Core.sendEvent, ht]
    split
    · rename_i hc
      exact ih _ hc _ (by rw [h2]; exact hn)
    · exact .refl _

theorem Foot.log {c : Ctx} {bad : Prop} {id level : U8} {msg : List U8} : Foot c bad [.tx] (Logger.log c id level msg) := by
  unfold Logger.log
  refine .bind .get fun _ => .whenM fun _ => .whenM fun _ => .bind (fun w => ?_) fun _ => .pure _
  exact Foot.sendLoop _ _ _ ⟨rfl, show (3 : U8).toNat < 8 by decide, show (509 : U16).toNat < 512 by decide⟩ _ _ _ rfl

theorem stepOp_steps {c : Ctx} {op : Op} (hop : op.Ok) {w : W} (h : LbOk c w) :
    Steps c (cfgBad c) (nodeActs ++ (userMsgs [op]).map .userTx) w (stepOp c op w).2 := by
  have sub : nodeActs ⊆ nodeActs ++ (userMsgs [op]).map .userTx := fun x hx => List.mem_append_left _ hx
  cases op with
  | init ok => exact ((Foot.coreInit ok).mono (by decide) w : Steps c (cfgBad c) nodeActs w _).mono sub
  | process rx =>
    refine (process_steps ?_ h).mono sub
    intro m hm; subst hm; exact hop
  | tick ms => exact .one (a := .tick) (sub (by decide)) ⟨_, rfl⟩
  | startNodeSegmentInit => exact Foot.mono (.startNodeSegmentInit (A := nodeActs) (by decide)) sub w
  | restore => exact .one (a := .restore) (sub (by decide)) rfl
  | setAlarm v => exact .one (a := .alarmOr) (sub (by decide)) ⟨_, rfl⟩
  | setTime t => exact .one (a := .epochSet) (sub (by decide)) ⟨_, rfl⟩
  | enableHeartbeat b => exact .one (a := .hb) (sub (by decide)) rfl
  | sendEvent m => exact .one (a := .userTx m) (by simp [userMsgs]) rfl
  | getTransmitErrors => exact .one (a := .errClr) (sub (by decide)) rfl
  | loggerEnable b => exact .one (a := .lg) (sub (by decide)) ⟨_, rfl⟩
  | loggerLevel l => exact .one (a := .lg) (sub (by decide)) ⟨_, rfl⟩
  | log id level msg => exact (Foot.mono Foot.log (by decide) w : Steps c (cfgBad c) nodeActs w _).mono sub
  | logUInt32 id level x => exact (Foot.mono Foot.log (by decide) w : Steps c (cfgBad c) nodeActs w _).mono sub

theorem userMsgs_cons (op : Op) (ops : List Op) : userMsgs (op :: ops) = userMsgs [op] ++ userMsgs ops := by
  cases op <;> simp [userMsgs]

/-- A history is a sequence of steps; the loopback queue stays in order. -/
theorem runOps_steps {c : Ctx} (hbad : ¬cfgBad c) (hc : c.loopback = true → LoopbackCfg c) (ops : List Op)
    (hops : ∀ op ∈ ops, op.Ok) (w : W) (h : LbOk c w) :
    Steps c (cfgBad c) (nodeActs ++ (userMsgs ops).map .userTx) w (runOps c ops w) := by
  induction ops generalizing w with
  | nil => exact .refl _
  | cons op ops ih =>
    have h1 := stepOp_steps (hops op (by simp)) h
    have h2 := h1.lbOk hbad hc h
    have h3 := ih (fun o ho => hops o (by simp [ho])) _ h2.1
    rw [userMsgs_cons, List.map_append]
    refine Steps.trans (h1.mono ?_) (h3.mono ?_)
    · intro x hx
      simp only [List.mem_append] at hx ⊢
      rcases hx with hx | hx
      · exact .inl hx
      · exact .inr (.inl hx)
    · intro x hx
      simp only [List.mem_append] at hx ⊢
      rcases hx with hx | hx
      · exact .inl hx
      · exact .inr (.inr hx)

/-- After `init` the loopback queue is in order, whatever was before. -/
theorem init_lbOk {c : Ctx} (hc : c.loopback = true → LoopbackCfg c) (ok : Tmr → Bool) (w : W) :
    LbOk c (Core.init c ok w).2 ∧ (Core.init c ok w).2.ub = w.ub := by
  have h0 := LbOk.init hc { w with tm := { rem := fun _ => 0, ok := ok } }
  have h := (coreInit_tail (bad := False) ok w).lbOk id hc h0.1
  exact ⟨h.1, h.2.trans h0.2⟩

end Vscp
