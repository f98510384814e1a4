/-
Property C84: the application gets control exactly in its callbacks, once for each of them.
-/
import Verif.Props.Callout

namespace Vscp.Callout
open Vscp.Spec Vscp.Spec.Dm M Transport Vscp.Safety

/-! ### Specification -/

/-- The calls of the application in which it may react; with `x` also its register functions and the notifications about a state. -/
def isCallout (x : Bool) : Out → Bool
  | .event _ | .protoEvent .. | .action .. | .timeUpdate _ | .customHeartbeat => true
  | .appRead .. | .appWrite .. | .idleEntered | .errorEntered | .resetRequest | .bootLoaderRequest => x
  | _ => false

/-- What a callout itself stores before it reacts: the zones, in a write of a register. -/
def stores : Out → List Out → Prop
  | .appWrite .., zs => ∀ z ∈ zs, ∃ a v, z = .psW a v
  | _, zs => zs = []

theorem stores_nil (o : Out) : stores o [] := by
  cases o <;> simp [stores]

/-- Each callout is directly followed by the transmission of `e` (behind its stores), and `e` is transmitted nowhere else. -/
inductive Answered (x : Bool) (e : Msg) : List Out → Prop
  | nil : Answered x e []
  | plain {o : Out} {t : List Out} : isCallout x o = false → (∀ r, o ≠ .tx e r) → Answered x e t → Answered x e (o :: t)
  | call {o : Out} {zs : List Out} {r : Bool} {t : List Out} : isCallout x o = true → stores o zs → Answered x e t →
      Answered x e (o :: (zs ++ .tx e r :: t))

theorem Answered.append {x : Bool} {e : Msg} {t t' : List Out} (h : Answered x e t) (h' : Answered x e t') : Answered x e (t ++ t') := by
  induction h with
  | nil => exact h'
  | plain h1 h2 _ ih => exact .plain h1 h2 ih
  | call h1 h2 _ ih => rw [List.cons_append, List.append_assoc]; exact .call h1 h2 ih

/-! ### Proof -/

/-- The calls between two states are answered. -/
def Ans (x : Bool) (e : Msg) (w w' : W) : Prop := ∃ t, w'.out = w.out ++ t ∧ Answered x e t

theorem Ans.refl {x : Bool} (e : Msg) (w : W) : Ans x e w w := ⟨[], by simp, .nil⟩
theorem Ans.trans {x : Bool} {e : Msg} {w w' w'' : W} (h : Ans x e w w') (h' : Ans x e w' w'') : Ans x e w w'' := by
  obtain ⟨t, h1, h2⟩ := h
  obtain ⟨t', h1', h2'⟩ := h'
  exact ⟨t ++ t', by rw [h1', h1, List.append_assoc], h2.append h2'⟩

/-- Steps which are no callouts, and no transmissions for the application. -/
def plainAct (x : Bool) : Act → Bool
  | .event | .protoEvent | .action | .timeUpdate | .customHb | .userTx _ => false
  | .appRead | .appWrite | .idleEntered | .errorEntered | .resetReq | .bootReq => !x
  | _ => true

theorem plain_list {x : Bool} {e : Msg} (t : List Out) (h : ∀ o ∈ t, isCallout x o = false ∧ ∀ r, o ≠ .tx e r) : Answered x e t := by
  induction t with
  | nil => exact .nil
  | cons o t ih => exact .plain (h o (by simp)).1 (h o (by simp)).2 (ih fun x hx => h x (by simp [hx]))

theorem emits_plain {x : Bool} {c : Ctx} {a : Act} (ha : plainAct x a = true) (ht : a ≠ .tx) {o : Out} (h : a.emits c o) (e : Msg) :
    isCallout x o = false ∧ ∀ r, o ≠ .tx e r := by
  cases a with
  | tx => exact absurd rfl ht
  | event | protoEvent | action | timeUpdate | customHb | userTx => cases ha
  | nick | seg | flags | boot | st | initVars =>
    simp only [Act.emits] at h
    first
      | (obtain ⟨_, rfl⟩ := h; exact ⟨rfl, fun r => by simp⟩)
      | (subst h; exact ⟨rfl, fun r => by simp⟩)
  | resetReq | idleEntered | errorEntered | bootReq =>
    have hx : x = false := by simpa [plainAct] using ha
    simp only [Act.emits] at h
    subst h; exact ⟨hx, fun r => by simp⟩
  | user | dmW | ngW => obtain ⟨_, _, _, rfl⟩ := h; exact ⟨rfl, fun r => by simp⟩
  | restore => rcases h with ⟨_, _, rfl⟩ | rfl | rfl <;> exact ⟨rfl, fun r => by simp⟩
  | appWrite =>
    have hx : x = false := by simpa [plainAct] using ha
    rcases h with ⟨_, _, _, _, rfl⟩ | ⟨_, _, _, rfl⟩
    · exact ⟨hx, fun r => by simp⟩
    · exact ⟨rfl, fun r => by simp⟩
  | appRead =>
    have hx : x = false := by simpa [plainAct] using ha
    obtain ⟨_, _, _, rfl⟩ := h; exact ⟨hx, fun r => by simp⟩
  | _ => exact absurd h id

section
variable {x : Bool} {c : Ctx} {e : Msg} (he : e.hard ≠ c.hardCoded)
include he

theorem plain_step {bad : Prop} {a : Act} (ha : plainAct x a = true) {w w' : W} (hs : Step c bad a w w') : Ans x e w w' := by
  by_cases ht : a = .tx
  · subst ht
    obtain ⟨m, -, hm, -, rfl⟩ := hs
    obtain ⟨tp, ub, t, h, hc⟩ := writeMessage_frame c m w
    rw [h]
    refine ⟨t, rfl, plain_list t fun o ho => ?_⟩
    rcases hc with rfl | ⟨rfl, -⟩
    · rw [List.mem_singleton.mp ho]
      refine ⟨rfl, fun r h => ?_⟩
      injection h with h
      exact he (by rw [← h, hm.1])
    · cases ho
  · obtain ⟨t, h1, h2⟩ := hs.outs
    exact ⟨t, h1, plain_list t fun o ho => emits_plain ha ht (h2 o ho) e⟩

theorem plain_steps {bad : Prop} {A : List Act} (hA : A.all (plainAct x) = true) {w w' : W} (hs : Steps c bad A w w') : Ans x e w w' := by
  induction hs with
  | refl => exact .refl e _
  | tail _ ha hst ih => exact ih.trans (plain_step he (List.all_eq_true.mp hA _ ha) hst)

end

/-- A function whose calls are answered. -/
def FootA (x : Bool) (e : Msg) (m : M α) : Prop := ∀ w, Ans x e w (m w).2

namespace FootA
variable {x : Bool} {e : Msg} {α β : Type}

theorem pure (a : α) : FootA x e (Pure.pure a : M α) := fun w => .refl e w
theorem get : FootA x e M.get := fun w => .refl e w
theorem bind {m : M α} {f : α → M β} (h : FootA x e m) (h' : ∀ a, FootA x e (f a)) : FootA x e (m >>= f) :=
  fun w => (h w).trans (h' _ _)
theorem ite {p : Prop} [Decidable p] {m m' : M α} (h : p → FootA x e m) (h' : ¬p → FootA x e m') : FootA x e (if p then m else m') := by
  split
  · exact h ‹_›
  · exact h' ‹_›
theorem whenM {p : Prop} [Decidable p] {m : M Unit} (h : p → FootA x e m) : FootA x e (Vscp.whenM p m) := .ite h fun _ => .pure _
theorem forUp {f : Nat → M Unit} (h : ∀ i, FootA x e (f i)) (n : Nat) : FootA x e (Vscp.forUp f n) := by
  induction n with
  | zero => exact .pure _
  | succ n ih => exact .bind ih fun _ => h n

variable {c : Ctx} (he : e.hard ≠ c.hardCoded)
include he

theorem of {A : List Act} {m : M α} (h : Foot c True A m) (hA : A.all (plainAct x) = true) : FootA x e m :=
  fun w => plain_steps he hA (h w)

omit he in
/-- A callout with the answer of the application. -/
theorem call (h8 : e.size.toNat ≤ 8) {o : Out} (ho : isCallout x o = true) (c : Ctx) :
    FootA x e (do emit o; callback c (fun _ => [.sendEvent e])) := by
  intro w
  obtain ⟨tp, ub, t, h, hc⟩ := writeMessage_frame c e (addOut o w)
  have h' : ((do emit o; callback c (fun _ => [.sendEvent e]) : M Unit) w).2 = (writeMessage c e (addOut o w)).2 := rfl
  rw [h', h]
  rcases hc with rfl | ⟨-, -, hc⟩
  · exact ⟨[o, .tx e _], by show (w.out ++ [o]) ++ _ = _; rw [List.append_assoc]; rfl, .call (zs := []) ho (stores_nil o) .nil⟩
  · omega

variable (h8 : e.size.toNat ≤ 8)
include h8

theorem dmExecRow {m : Msg} {i : Nat} : FootA x e (Dm.execRowC c (fun _ => [.sendEvent e]) m i) := by
  unfold Dm.execRowC
  refine .bind (.of he (A := []) ?_ (by cases x <;> rfl)) fun _ => .ite (fun _ => .bind (.of he (A := []) ?_ (by cases x <;> rfl)) fun _ =>
    .bind (.of he (A := []) ?_ (by cases x <;> rfl)) fun _ => .bind (.of he (A := []) .zoneRead (by cases x <;> rfl)) fun _ =>
    .bind (.of he (A := []) .subZoneRead (by cases x <;> rfl)) fun _ =>
    .bind (.whenM fun h => absurd (Util.zoneIndex_next _ _ h.2.1) h.2.2) fun _ => ?_) fun _ => .pure _
  · unfold Dm.isRowEnabled
    exact .bind (.readIdx _ _ _) fun _ => .pure _
  · unfold Dm.readRow
    refine .bind ?_ fun _ => ?_
    · unfold Ps.readDmMultiple
      exact .ite (fun _ => .map (.of_eq fun _ => rfl)) fun _ => .pure _
    · split <;> exact .pure _
  · refine .ite (fun _ => ?_) fun _ => .pure _
    unfold Dm.readExtRow
    refine .bind ?_ fun _ => ?_
    · unfold Ps.readDmExtMultiple
      exact .ite (fun _ => .map (.of_eq fun _ => rfl)) fun _ => .pure _
    · split <;> exact .pure _
  · split
    · exact .call h8 rfl c
    · exact .pure _

omit h8 in
theorem markUb : FootA x e Vscp.markUb := .of he (A := [.ub]) (.markUb trivial (by decide)) (by cases x <;> rfl)

theorem dmExecuteActions {m : Msg} : FootA x e (Dm.executeActionsC c (fun _ => [.sendEvent e]) m) := by
  unfold Dm.executeActionsC
  exact .ite (fun _ => .forUp (fun _ => .dmExecRow he h8) _) fun _ => .markUb he

theorem ngExecRule {m : Msg} {buf : List U8} : FootA x e (DmNg.execRuleC c (fun _ => [.sendEvent e]) buf m) := by
  unfold DmNg.execRuleC
  split
  · refine .ite (fun _ => .ite (fun _ => ?_) fun _ => .pure _) fun _ => .pure _
    split
    · exact .call h8 rfl c
    · exact .pure _
    · exact .markUb he
  · exact .markUb he

omit h8 in
theorem ngNext {buf : List U8} : FootA x e (DmNg.getNextRule c.toCfg buf) :=
  fun w => plain_steps he (A := [.ngVars]) (by cases x <;> rfl) (Foot.ngGetNextRule (bad := True) w)

theorem ngRulesLoop {m : Msg} (n : Nat) (buf : List U8) : FootA x e (DmNg.rulesLoopC c (fun _ => [.sendEvent e]) m n buf) := by
  induction n generalizing buf with
  | zero => exact .markUb he
  | succ n ih =>
    refine .bind (.ngExecRule he h8) fun _ => .bind (.ngNext he) fun r => ?_
    cases r with
    | none => exact .pure _
    | some b => exact ih b

theorem ngExecuteActions {m : Msg} : FootA x e (DmNg.executeActionsC c (fun _ => [.sendEvent e]) m) := by
  unfold DmNg.executeActionsC
  refine .bind ?_ fun r => ?_
  · unfold DmNg.getFirstRule
    exact .bind (.of he (A := []) (.readIdx _ _ _) (by cases x <;> rfl)) fun _ =>
      .bind (.of he (A := [.ngVars]) (.one (a := .ngVars) (by decide) fun w => ⟨_, _, rfl⟩) (by cases x <;> rfl)) fun _ => .ngNext he
  · cases r with
    | none => exact .pure _
    | some b => exact .ngRulesLoop he h8 _ _

/-- The handler of the segment heartbeat with the callback behind it. -/
theorem heartbeat {m : Msg} (hs : c.hbSegment = true) : FootA x e (do
    Core.handleHeartbeat c m
    Vscp.whenM (c.hbSegment = true ∧ 5 ≤ m.size.toNat ∧ c.segTimeCallout = true) (callback c (fun _ => [.sendEvent e]))) := by
  by_cases hk : 5 ≤ m.size.toNat ∧ c.segTimeCallout = true
  · have e1 : (do Core.handleHeartbeat c m
                  Vscp.whenM (c.hbSegment = true ∧ 5 ≤ m.size.toNat ∧ c.segTimeCallout = true) (callback c (fun _ => [.sendEvent e]))) =
        (do
          let crc ← Ps.readSegCrc c
          Vscp.whenM (crc ≠ m.data[0]) (do
            Ps.writeSegCrc c m.data[0]
            let w ← M.get
            Vscp.whenM (w.v.probe ≠ Core.MASTER) (Core.changeToStateInit c true))
          setV fun v => { v with epoch := Core.epochOf m }
          emit (.timeUpdate (Core.epochOf m))
          callback c (fun _ => [.sendEvent e]) : M Unit) := by
      unfold Core.handleHeartbeat
      funext w
      simp only [bind_run, whenM_run, hk, hs, and_self, if_true, if_pos (show 0 < m.size.toNat by omega)]
    rw [e1]
    refine .bind (.of he (A := []) (.psRead8 _) (by cases x <;> rfl)) fun _ => .bind (.whenM fun _ => ?_) fun _ =>
      .bind (.of he (A := [.epochSet]) (.one (a := .epochSet) (by decide) fun w => ⟨_, rfl⟩) (by cases x <;> rfl)) fun _ => .call h8 rfl c
    exact .of he (A := [.seg, .st .init, .ist, .nick]) (.bind (.one (a := .seg) (by decide) fun w => ⟨_, rfl⟩) fun _ => .bind .get fun _ => .whenM fun _ =>
      .changeToStateInit (by decide)) (by cases x <;> rfl)
  · refine .bind ?_ fun _ => .whenM fun h => absurd h.2 hk
    refine .of he (A := [.seg, .st .init, .ist, .nick, .epochSet]) ?_ (by cases x <;> rfl)
    unfold Core.handleHeartbeat
    refine .whenM fun _ => .bind (.psRead8 _) fun _ => .bind (.whenM fun _ => ?_) fun _ => .whenM fun h5 => ?_
    · exact .bind (.one (a := .seg) (by decide) fun w => ⟨_, rfl⟩) fun _ => .bind .get fun _ => .whenM fun _ =>
        .changeToStateInit (by decide)
    · exact .bind (.one (a := .epochSet) (by decide) fun w => ⟨_, rfl⟩) fun _ => .whenM fun h => absurd ⟨h5, h⟩ hk

theorem activeHeartbeat : FootA x e (Core.activeHeartbeatC c (fun _ => [.sendEvent e])) := by
  unfold Core.activeHeartbeatC
  refine .bind .get fun w => .bind (.of he (A := []) (.timerRunning _) (by cases x <;> rfl)) fun _ => .whenM fun _ =>
    .bind (.ite (fun _ => .call h8 rfl c) fun _ => ?_) fun _ => .of he (A := [.tm .heartbeat]) (.timerStart _ (by decide)) (by cases x <;> rfl)
  refine .of he (A := [.tx]) (.bind .zoneRead fun z => .bind .subZoneRead fun s w => ?_) (by cases x <;> rfl)
  refine .one (a := .tx) (by decide) ⟨⟨3, 20, 9, w.v.nick, c.hardCoded, 3, bytes8 [0, z, s]⟩, .inl rfl, ⟨rfl, show (3 : U8).toNat < 8 by decide, show (20 : U16).toNat < 512 by decide⟩, .inl ?_, rfl⟩
  exact Nat.le_of_ble_eq_true rfl

theorem handler {m : Msg} : FootA false e (Core.handleProtocolClassTypeC c (fun _ => [.sendEvent e]) m) := by
  unfold Core.handleProtocolClassTypeC
  by_cases h1 : m.typ = 1
  · rw [handler1 h1]
    by_cases hs : c.hbSegment = true
    · have := FootA.heartbeat (x := false) he h8 (m := m) hs
      have e2 : (Vscp.whenM c.hbSegment (Core.handleHeartbeat c m)) = Core.handleHeartbeat c m := if_pos hs
      rw [e2]
      refine fun w => ?_
      have e3 : ∀ w : W, Vscp.whenM (m.typ = 1 ∧ c.hbSegment = true ∧ 5 ≤ m.size.toNat ∧ c.segTimeCallout = true) (callback c (fun _ => [.sendEvent e])) w =
          Vscp.whenM (c.hbSegment = true ∧ 5 ≤ m.size.toNat ∧ c.segTimeCallout = true) (callback c (fun _ => [.sendEvent e])) w := by
        intro w; simp only [whenM_run, h1, true_and]
      have := this w
      rw [bind_run] at this ⊢
      rw [e3]
      exact this
    · refine .bind (.whenM fun h => absurd h hs) fun _ => .whenM fun h => absurd h.2.1 hs
  · refine .bind ?_ fun _ => .whenM fun h => absurd h.1 h1
    have key : Foot c True (protoActs.filter (· ≠ .timeUpdate)) (Core.handleProtocolClassType c m) := by
      unfold Core.handleProtocolClassType
      split
      · rename_i h; exact absurd (BitVec.eq_of_toNat_eq h) h1
      · exact .mono .handleNewNodeOnline (by decide)
      · exact .mono .handleProbeAck (by decide)
      · exact .mono .handleSetNicknameId (by decide)
      · exact .mono .handleDropNicknameId (by decide)
      · exact .mono .handleReadRegister (by decide)
      · exact .mono .handleWriteRegister (by decide)
      · exact .mono .handleEnterBootLoaderMode (by decide)
      · exact .mono .handleGuidDropNickname (by decide)
      · exact .mono .handlePageRead (by decide)
      · exact .mono (.handlePageWrite fun _ => trivial) (by decide)
      · exact .mono .handleIncrementRegister (by decide)
      · exact .mono .handleDecrementRegister (by decide)
      · exact .mono .handleWhoIsThere (by decide)
      · exact .mono .handleGetDecisionMatrixInfo (by decide)
      · exact .mono .handleExtendedPageReadRegister (by decide)
      · exact .mono (.handleExtendedPageWriteRegister fun _ => trivial) (by decide)
      · exact .pure _
    exact .of he key (by decide)

theorem activeEvent {m : Msg} : FootA false e (Core.activeEventC c (fun _ => [.sendEvent e]) m) := by
  unfold Core.activeEventC
  refine .bind (.ite (fun _ => .ite (fun _ => ?_) fun _ => .handler he h8) fun _ => .call h8 rfl c) fun _ =>
    .bind (.whenM fun _ => .dmExecuteActions he h8) fun _ => .whenM fun _ => .ngExecuteActions he h8
  refine .bind .get fun w0 => ?_
  have := FootA.bind (FootA.call (x := false) h8 (o := .protoEvent m (c.protoHandled w0.out.length)) rfl c)
    fun _ => FootA.whenM (p := c.protoHandled w0.out.length = false) fun _ => FootA.handler he h8 (m := m)
  exact this

theorem dispatch {rx : Option Msg} : FootA false e (Core.dispatchC c (fun _ => [.sendEvent e]) rx) := by
  intro w
  unfold Core.dispatchC
  rw [bind_run, get_run]
  cases hs : w.v.st with
  | active =>
    dsimp only
    refine FootA.bind ?_ (fun _ => .bind (.activeHeartbeat he h8) fun _ => .bind (.of he .activeExtRead (by decide)) fun _ => .pure _) w
    cases rx with
    | none => exact .pure _
    | some m => exact .activeEvent he h8
  | startup =>
    dsimp only; unfold Core.dispatch; rw [bind_run, get_run, hs]
    exact FootA.bind (.of he .stateStartup (by decide)) (fun _ => .pure _) w
  | init =>
    dsimp only; unfold Core.dispatch; rw [bind_run, get_run, hs]
    exact plain_steps he (by decide) (Foot.stateInit (bad := True) w hs)
  | preActive =>
    dsimp only; unfold Core.dispatch; rw [bind_run, get_run, hs]
    exact FootA.bind (.of he .statePreActive (by decide)) (fun _ => .pure _) w
  | idle =>
    dsimp only; unfold Core.dispatch; rw [bind_run, get_run, hs]
    exact .refl e w
  | reset =>
    dsimp only; unfold Core.dispatch; rw [bind_run, get_run, hs]
    exact FootA.bind (.of he .stateReset (by decide)) (fun _ => .pure _) w
  | error =>
    dsimp only; unfold Core.dispatch; rw [bind_run, get_run, hs]
    exact .refl e w

theorem op {o : Op} (ho : o.Ok) (hne : o ≠ .sendEvent e) : FootA false e (stepOpC c (fun _ => [.sendEvent e]) o) := by
  cases o with
  | init ok => exact .of he (Foot.coreInit ok) (by decide)
  | process rx =>
    intro w
    show Ans false e w (Core.processC c _ rx w).2
    rw [processC_split]
    have hrx : ∀ m, rx = some m → m.size.toNat ≤ 8 := by intro m hm; subst hm; exact ho
    exact (plain_steps he rfl (preProcess_steps (bad := True) hrx w)).trans (FootA.dispatch he h8 _)
  | tick ms => exact fun w => plain_step he (bad := True) (a := .tick) rfl ⟨_, rfl⟩
  | startNodeSegmentInit => exact .of he (A := [.nick, .seg, .st .init, .ist, .tm .main, .tm .heartbeat, .tm .guidDrop]) (.startNodeSegmentInit (by decide)) rfl
  | restore => exact fun w => plain_step he (bad := True) (a := .restore) rfl rfl
  | setAlarm v => exact fun w => plain_step he (bad := True) (a := .alarmOr) rfl ⟨_, rfl⟩
  | setTime t => exact fun w => plain_step he (bad := True) (a := .epochSet) rfl ⟨_, rfl⟩
  | enableHeartbeat b => exact fun w => plain_step he (bad := True) (a := .hb) rfl rfl
  | sendEvent m =>
    intro w
    show Ans false e w (writeMessage c m w).2
    obtain ⟨tp, ub, t, h, hc⟩ := writeMessage_frame c m w
    rw [h]
    refine ⟨t, rfl, plain_list t fun o ho => ?_⟩
    rcases hc with rfl | ⟨rfl, -⟩
    · rw [List.mem_singleton.mp ho]
      refine ⟨rfl, fun r h => ?_⟩
      injection h with h
      exact hne (by rw [h])
    · cases ho
  | getTransmitErrors => exact fun w => plain_step he (bad := True) (a := .errClr) rfl rfl
  | loggerEnable b => exact fun w => plain_step he (bad := True) (a := .lg) rfl ⟨_, rfl⟩
  | loggerLevel l => exact fun w => plain_step he (bad := True) (a := .lg) rfl ⟨_, rfl⟩
  | log id level msg => exact .of he Foot.log (by decide)
  | logUInt32 id level x => exact .of he Foot.log (by decide)

end FootA

/-- C84: the application gets control once in every callout, directly behind its beginning, and never else: if it sends the event `e` in each callback (and
nowhere else; the framework never sends an event with the other hard-coded flag), then in every history each callout is directly followed by
the transmission of `e`, and `e` is not transmitted anywhere else. -/
theorem C84_once {c : Ctx} {e : Msg} (he : e.hard ≠ c.hardCoded) (h8 : e.size.toNat ≤ 8) (ok : Tmr → Bool) (ps : Nat → U8) (ops : List Op)
    (hops : ∀ op ∈ ops, op.Ok) (hne : .sendEvent e ∉ ops) : Answered false e (nodeC c (fun _ => [.sendEvent e]) ok ps ops).out := by
  have key : ∀ (l : List Op) (w : W), (∀ op ∈ l, op.Ok) → .sendEvent e ∉ l → Ans false e w (runOpsC c (fun _ => [.sendEvent e]) l w) := by
    intro l
    induction l with
    | nil => exact fun w _ _ => .refl e w
    | cons o l ih =>
      intro w h1 h2
      refine (FootA.op he h8 (h1 o (by simp)) (fun h => h2 (by simp [h])) w).trans (ih _ (fun x hx => h1 x (by simp [hx])) fun h => h2 (by simp [h]))
  obtain ⟨t, h1, h2⟩ := key (.init ok :: ops) (powerUp ps) (by
    intro o ho
    rcases List.mem_cons.mp ho with rfl | ho
    · trivial
    · exact hops o ho) (by simp [hne])
  have h0 : (powerUp ps).out = [] := rfl
  rw [h0, List.nil_append] at h1
  exact h1 ▸ h2

/-- The event of the examples. -/
def reply : Msg := { Ex.msg 20 3 5 [0, 3, 4] with hard := !Ex.ctx.hardCoded }

/-- A received event is answered; the node of the examples gets the events of its own application, too (loopback): the answer is answered. -/
example : reply.hard ≠ Ex.ctx.hardCoded ∧ (nodeC Ex.ctx (fun _ => [.sendEvent reply]) allOk (mem 0x60)
      [.process none, .process (some (Ex.msg 20 4 9 [1, 2, 3])), .process none]).out.drop 3 =
    [.event (Ex.msg 20 4 9 [1, 2, 3]), .tx reply true, .event reply, .tx reply true] := by decide +kernel

end Vscp.Callout
