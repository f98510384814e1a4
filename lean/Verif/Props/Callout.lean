/-
Property C84: the application may call the framework from inside of its callbacks.
-/
import Verif.Lemmas.Callout
import Verif.Props.Safety
import Verif.Props.Dm

namespace Vscp.Callout
open Vscp.Spec Vscp.Spec.Dm M Transport Vscp.Safety

/-- A node powered up with the given memory, initialised, and used by the given calls; the application makes the calls
`cb` in its callbacks. -/
def nodeC (c : Ctx) (cb : Callbacks) (ok : Tmr → Bool) (ps : Nat → U8) (ops : List Op) : W :=
  runOpsC c cb (.init ok :: ops) (powerUp ps)

/-- Callbacks of an example: answers each event with an event of class 20 type 3 (button), if it is not one itself; restores
the factory settings, or begins a discovery, if told so. -/
def exCb (n : Nat) : Callbacks := fun w => if w.out.length = n then [.sendEvent (Ex.msg 20 3 5 [0, 3, 4]), .setAlarm 1] else []

theorem exCb_ok (w : Nat) : CbOk (exCb w) := by
  intro n op h
  unfold exCb at h
  split at h
  · simp only [List.mem_cons, List.not_mem_nil, or_false] at h
    rcases h with rfl | rfl <;> trivial
  · simp at h

theorem activeEventC_none (c : Ctx) (m : Msg) : Core.activeEventC c (fun _ => []) m = Core.activeEvent c m := by
  have hcb : callback c (fun _ => []) = (pure () : M Unit) := rfl
  have hp : Core.handleProtocolClassTypeC c (fun _ => []) m = Core.handleProtocolClassType c m := by
    funext w
    unfold Core.handleProtocolClassTypeC
    rw [hcb, bind_run, whenM_run]
    split <;> rfl
  have hrow : ∀ i, Dm.execRowC c (fun _ => []) m i = Dm.execRow c m i := fun _ => rfl
  have hrule : ∀ buf, DmNg.execRuleC c (fun _ => []) buf m = DmNg.execRule buf m := fun _ => rfl
  have hloop : ∀ n buf, DmNg.rulesLoopC c (fun _ => []) m n buf = DmNg.rulesLoop c m n buf := by
    intro n
    induction n with
    | zero => intro _; rfl
    | succ n ih =>
      intro buf
      unfold DmNg.rulesLoopC DmNg.rulesLoop
      rw [hrule]
      funext w
      rw [bind_run, bind_run, bind_run, bind_run]
      cases (DmNg.getNextRule c.toCfg buf (DmNg.execRule buf m w).2).1 with
      | none => rfl
      | some b => exact congrFun (ih b) _
  have hng : DmNg.executeActionsC c (fun _ => []) m = DmNg.executeActions c m := by
    funext w
    unfold DmNg.executeActionsC DmNg.executeActions
    rw [bind_run, bind_run]
    cases (DmNg.getFirstRule c.toCfg ((List.range DmNg.RULE_MAX_SIZE).map c.garbage) w).1 with
    | none => rfl
    | some b => exact congrFun (hloop 256 b) _
  have hdm : Dm.executeActionsC c (fun _ => []) m = Dm.executeActions c m := rfl
  unfold Core.activeEventC Core.activeEvent
  rw [hng, hdm, hp]
  rfl

theorem stepOpC_none (c : Ctx) (op : Op) : stepOpC c (fun _ => []) op = stepOp c op := by
  have hst : ∀ rx, Core.stateActiveC c (fun _ => []) rx = Core.stateActive c rx := by
    intro rx
    cases rx with
    | none => rfl
    | some m =>
      unfold Core.stateActiveC Core.stateActive Core.activeEventOptC
      simp only [activeEventC_none]
      rfl
  have hdi : ∀ rx, Core.dispatchC c (fun _ => []) rx = Core.dispatch c rx := by
    intro rx
    funext w
    unfold Core.dispatchC
    rw [bind_run, get_run]
    dsimp only
    cases hs : w.v.st with
    | active =>
      unfold Core.dispatch
      rw [bind_run, get_run]
      dsimp only
      rw [hs]
      exact congrFun (hst rx) w
    | _ => rfl
  cases op with
  | process rx =>
    funext w
    show (do let _ ← Core.processC c (fun _ => []) rx : M Unit) w = (do let _ ← Core.process c rx : M Unit) w
    have : Core.processC c (fun _ => []) rx w = Core.process c rx w := by
      rw [processC_split, process_split, hdi]
    rw [bind_run, bind_run, this]
  | _ => rfl

/-- C84: without calls in callbacks this is the node of the other properties. -/
theorem C84_none (c : Ctx) (ops : List Op) (w : W) : runOpsC c (fun _ => []) ops w = runOps c ops w := by
  induction ops generalizing w with
  | nil => rfl
  | cons op ops ih =>
    show runOpsC c (fun _ => []) ops _ = runOps c ops _
    rw [stepOpC_none]
    exact ih _

section
variable {c : Ctx} (h : GoodCfg c) {cb : Callbacks} (hcb : CbOk cb) (ok : Tmr → Bool) (ps : Nat → U8) (ops : List Op)
  (hops : ∀ op ∈ ops, op.Ok)
include h hcb hops

/-- C84, partial as C45: with any calls in callbacks, every frame transmitted is either one the application asked for (outside or
inside of a callback), or has at most 8 data bytes, the configured hard-coded flag, one of the 8 priorities, a class below 512, and as origin the nickname
stored at that time. -/
theorem C84_frames_partial :
    Always (fun mem o => ∀ m r, o = .tx m r → .sendEvent m ∈ ops ∨ (∃ n, .sendEvent m ∈ cb n) ∨
      ((m.oAddr = mem (Ps.addrNickname c) ∨ mem (Ps.addrNickname c) = 0xFF ∧ m.cls = 0 ∧ (m.typ = 26 ∨ m.typ = 39)) ∧
        m.hard = c.hardCoded ∧ m.prio.toNat < 8 ∧ m.cls.toNat < 512 ∧ m.size.toNat ≤ 8)) ps (nodeC c cb ok ps ops).out := by
  obtain ⟨t, L, hL, h1, -, -, h4, -⟩ := history_traceC h.notBad h.lb hcb ok ops hops (powerUp ps)
  have : (nodeC c cb ok ps ops).out = t := h1
  rw [this]
  refine Always.mono h4 ?_
  rintro mem o ho m r rfl
  rcases ho with ho | ho
  · rcases hL m ho with h | h
    · exact .inl h
    · exact .inr (.inl h)
  · exact .inr (.inr ho)

/-- C84: the nickname in use stays the stored one, also if the application restores the factory settings or begins a discovery in a
callback. -/
theorem C84_nickname_stored : (nodeC c cb ok ps ops).v.nick = (nodeC c cb ok ps ops).ps (Ps.addrNickname c) := by
  obtain ⟨t, L, -, -, -, h3, -⟩ := history_traceC h.notBad h.lb hcb ok ops hops (powerUp ps)
  exact h3

/-- C84: the write protection holds. -/
theorem C84_write_protection :
    Always (fun mem o => (∀ a b, o = .psW a b → Ps.addrDm c ≤ a → writeEnable (mem (Ps.addrFlags c)) = true) ∧
      (∀ p a v r, o = .appWrite p a v r → writeEnable (mem (Ps.addrFlags c)) = true)) ps (nodeC c cb ok ps ops).out := by
  obtain ⟨t, L, -, h1, -, -, h4, -⟩ := history_traceC h.notBad h.lb hcb ok ops hops (powerUp ps)
  have : (nodeC c cb ok ps ops).out = t := h1
  rw [this]
  refine Always.mono h4 ?_
  intro mem o ho
  refine ⟨?_, ?_⟩
  · rintro a b rfl; exact ho.2
  · rintro p a v r rfl; exact ho

/-- C84: no access out of bounds (of memory, persistent memory, loopback storage, rule buffer). -/
theorem C84_no_out_of_bounds_partial :
    (nodeC c cb ok ps ops).ub = false ∧ ∀ a b, .psW a b ∈ (nodeC c cb ok ps ops).out → a < Ps.addrNext c := by
  obtain ⟨t, L, -, h1, -, -, h4, h5, -⟩ := history_traceC h.notBad h.lb hcb ok ops hops (powerUp ps)
  refine ⟨h5, ?_⟩
  intro a b hm
  have : (nodeC c cb ok ps ops).out = t := h1
  rw [this] at hm
  obtain ⟨pre, post, he⟩ := List.append_of_mem hm
  exact (h4 pre _ post he).1

end

/-- The node of the example is active after its first cycle and has made three calls.  With the next cycle it gets an event which the
application answers in the callback (call number 4) with another event, and an alarm. -/
example : (nodeC Ex.ctx (exCb 4) allOk (mem 0x60) [.process none]).out.length = 3 ∧
    (nodeC Ex.ctx (exCb 4) allOk (mem 0x60) [.process none, .process (some (Ex.msg 20 4 9 [1, 2, 3]))]).out.drop 3 =
      [.event (Ex.msg 20 4 9 [1, 2, 3]), .tx (Ex.msg 20 3 5 [0, 3, 4]) true] ∧
    (nodeC Ex.ctx (exCb 4) allOk (mem 0x60) [.process none, .process (some (Ex.msg 20 4 9 [1, 2, 3]))]).v.alarm = 1 := by
  decide +kernel

/-- The application begins a discovery in the callback: the nickname is dropped, in use and stored. -/
example : (nodeC Ex.ctx (fun w => if w.out.length = 4 then [.startNodeSegmentInit] else []) allOk (mem 0x60)
      [.process none, .process (some (Ex.msg 20 4 9 [1, 2, 3]))]).v.nick = 0xFF ∧
    (nodeC Ex.ctx (fun w => if w.out.length = 4 then [.startNodeSegmentInit] else []) allOk (mem 0x60)
      [.process none, .process (some (Ex.msg 20 4 9 [1, 2, 3]))]).ps (Ps.addrNickname Ex.ctx) = 0xFF := by decide +kernel

theorem StepsB.outs {c : Ctx} {bad : Prop} {P : Msg → Prop} {w w' : W} (h : StepsU c bad P w w') : ∃ t, w'.out = w.out ++ t := by
  obtain ⟨L, -, hs⟩ := h
  obtain ⟨t, h, -⟩ := hs.outs
  exact ⟨t, h⟩

/-- A cycle of an active node which receives an event, with callbacks. -/
theorem process_event (c : Ctx) (cb : Callbacks) (rx : Option Msg) (m : Msg) (w : W) (ha : w.v.st = .active)
    (hr : (readMessage c rx w).1 = some m) : (stepOpC c cb (.process rx) w).2 =
      (Core.activeExtRead c (Core.activeHeartbeatC c cb (Core.activeEventC c cb m (preProcess c rx w).2).2).2).2 := by
  have hst : (preProcess c rx w).2.v.st = .active := (pre_same c rx w .st (by decide)).trans ha
  show (Core.processC c cb rx w).2 = _
  rw [processC_split, preProcess_rx, hr]
  generalize (preProcess c rx w).2 = w1 at hst
  unfold Core.dispatchC
  rw [bind_run, get_run]
  simp only [hst]
  rfl

/-- C84: an event which the application sends in the callback for a received event is handed to the adapter at once: directly
behind this callback, before anything else the node does in this cycle (actions, heartbeat). -/
theorem C84_reply (c : Ctx) {cb : Callbacks} (hcb : CbOk cb) (rx : Option Msg) (m e : Msg) (l : List Op) (w : W)
    (ha : w.v.st = .active) (hr : (readMessage c rx w).1 = some m) (hm : m.cls ≠ 0) (he : e.size.toNat ≤ 8)
    (hc : ∀ w1 : W, w1.out = w.out ++ [.event m] → cb w1 = .sendEvent e :: l) :
    ∃ r t, (stepOpC c cb (.process rx) w).2.out = w.out ++ .event m :: .tx e r :: t := by
  rw [process_event c cb rx m w ha hr]
  have hpo : (preProcess c rx w).2.out = w.out := pre_out c rx w
  generalize (preProcess c rx w).2 = w1 at hpo
  have hall : ∀ n, ∀ x ∈ cb n, x.inCallback := hcb
  obtain ⟨tp, ub, t0, h0, h0'⟩ := writeMessage_frame c e (addOut (.event m) w1)
  have ht0 : ∃ r, t0 = [.tx e r] := by
    rcases h0' with h | ⟨-, -, h⟩
    · exact ⟨_, h⟩
    · omega
  obtain ⟨r, rfl⟩ := ht0
  have hcall : ∃ t, (callback c cb (addOut (.event m) w1)).2.out = w.out ++ .event m :: .tx e r :: t := by
    have e1 : (callback c cb (addOut (.event m) w1)).2 = runOps c l (writeMessage c e (addOut (.event m) w1)).2 := by
      show runOps c (cb (addOut (.event m) w1)) _ = _
      rw [hc _ (by show w1.out ++ [Out.event m] = _; rw [hpo])]
      rfl
    rw [e1]
    have h2 : StepsU c True (fun _ => True) (writeMessage c e (addOut (.event m) w1)).2
        (runOps c l (writeMessage c e (addOut (.event m) w1)).2) := by
      have := FootB.callback (B := nodeActs) (c := c) (bad := True) (P := fun _ => True) (cb := fun _ => l)
        (fun _ o ho => hall (addOut (.event m) w1) o (by rw [hc _ (by show w1.out ++ [Out.event m] = _; rw [hpo])]; simp [ho])) (fun _ _ => trivial)
      exact this _
    obtain ⟨t, ht⟩ := StepsB.outs h2
    refine ⟨t, ?_⟩
    rw [ht, h0]
    simp [addOut, hpo]
  obtain ⟨t1, h1⟩ := hcall
  have hev : Core.activeEventC c cb m w1 = (do whenM c.dm (Dm.executeActionsC c cb m); whenM c.dmNg (DmNg.executeActionsC c cb m) : M Unit)
      (callback c cb (addOut (.event m) w1)).2 := by
    unfold Core.activeEventC
    rw [if_neg (show ¬m.cls = CLASS_PROTOCOL from hm)]
    rfl
  have f1 : FootU c True (fun _ => True) (do whenM c.dm (Dm.executeActionsC c cb m); whenM c.dmNg (DmNg.executeActionsC c cb m) : M Unit) :=
    .bind (.whenM fun _ => .dmExecuteActions hcb (fun _ _ => trivial) (fun _ => trivial)) fun _ => .whenM fun _ =>
      .ngExecuteActions hcb (fun _ _ => trivial) (fun _ => trivial) (fun _ => trivial)
  have f2 : FootU c True (fun _ => True) (Core.activeHeartbeatC c cb) := .activeHeartbeat hcb (fun _ _ => trivial)
  have f3 : FootU c True (fun _ => True) (Core.activeExtRead c) := .of .activeExtRead (by decide)
  obtain ⟨t2, h2⟩ := StepsB.outs (((f1 (callback c cb (addOut (.event m) w1)).2).trans (f2 _)).trans (f3 _))
  rw [← hev, h1] at h2
  exact ⟨r, t1 ++ t2, by rw [h2]; simp⟩

/-- The example of above is such a node. -/
example : (nodeC Ex.ctx (exCb 4) allOk (mem 0x60) [.process none]).v.st = .active ∧
    (readMessage Ex.ctx (some (Ex.msg 20 4 9 [1, 2, 3])) (nodeC Ex.ctx (exCb 4) allOk (mem 0x60) [.process none])).1 =
      some (Ex.msg 20 4 9 [1, 2, 3]) ∧
    ∀ w1 : W, w1.out = (nodeC Ex.ctx (exCb 4) allOk (mem 0x60) [.process none]).out ++ [.event (Ex.msg 20 4 9 [1, 2, 3])] →
      exCb 4 w1 = .sendEvent (Ex.msg 20 3 5 [0, 3, 4]) :: [.setAlarm 1] := by
  refine ⟨by decide +kernel, by decide +kernel, fun w1 h => ?_⟩
  have e : w1.out.length = 4 := by rw [h]; decide +kernel
  unfold exCb
  rw [if_pos e]

/-- Calls which do not touch the persistent memory. -/
def quiet : Op → Prop
  | .sendEvent _ | .setAlarm _ | .setTime _ | .enableHeartbeat _ | .getTransmitErrors | .loggerEnable _ | .loggerLevel _
  | .log .. | .logUInt32 .. => True
  | _ => False

/-- What decides about actions: memory, variables of the rule interpreter; and the actions executed so far. -/
structure Alike (w w' : W) : Prop where
  ps : w'.ps = w.ps
  dm : w'.dm = w.dm
  acts : actions w'.out = actions w.out

theorem Alike.trans {w w' w'' : W} (h : Alike w w') (h' : Alike w' w'') : Alike w w'' :=
  ⟨h'.ps.trans h.ps, h'.dm.trans h.dm, h'.acts.trans h.acts⟩

theorem quiet_alike (c : Ctx) (l : List Op) (hl : ∀ o ∈ l, quiet o) (w : W) : Alike w (runOps c l w) := by
  induction l generalizing w with
  | nil => exact ⟨rfl, rfl, rfl⟩
  | cons o l ih =>
    have ho := hl o (by simp)
    have hp : ∀ rx, o ≠ .process rx := by intro rx e; subst e; exact ho
    refine Alike.trans (w' := (stepOp c o w).2) ⟨?_, ?_, ?_⟩ (ih (fun x hx => hl x (by simp [hx])) _)
    · exact op_same c o hp w .ps (by cases o <;> first | exact ho.elim | simp [opActs, Act.touches])
    · exact op_same c o hp w .dm (by cases o <;> first | exact ho.elim | simp [opActs, Act.touches])
    · obtain ⟨t, h1, h2⟩ := DmProps.Steps.noAction (op_steps c o hp w) (by cases o <;> simp [opActs])
      rw [h1, DmProps.actions_append, h2, List.append_nil]

theorem callback_alike {c : Ctx} {cb : Callbacks} (hq : ∀ n, ∀ o ∈ cb n, quiet o) (w : W) : Alike w (callback c cb w).2 :=
  quiet_alike c _ (hq _) w

/-- Two functions which give the same result and the same actions. -/
def Cong {α : Type} (m m' : M α) : Prop := ∀ w w', Alike w w' → (m w).1 = (m' w').1 ∧ Alike (m w).2 (m' w').2

namespace Cong
variable {α β : Type}

theorem pure (a : α) : Cong (Pure.pure a : M α) (Pure.pure a) := fun _ _ h => ⟨rfl, h⟩
theorem bind {m m' : M α} {f f' : α → M β} (h : Cong m m') (h' : ∀ a, Cong (f a) (f' a)) : Cong (m >>= f) (m' >>= f') := by
  intro w w' ha
  obtain ⟨h1, h2⟩ := h w w' ha
  rw [bind_run, bind_run, ← h1]
  exact h' _ _ _ h2
theorem ite {p : Prop} [Decidable p] {m m' n n' : M α} (h : p → Cong m n) (h' : ¬p → Cong m' n') :
    Cong (if p then m else m') (if p then n else n') := by
  split
  · exact h ‹_›
  · exact h' ‹_›
theorem whenM {p : Prop} [Decidable p] {m n : M Unit} (h : p → Cong m n) : Cong (Vscp.whenM p m) (Vscp.whenM p n) :=
  .ite h fun _ => .pure _
theorem forUp {f g : Nat → M Unit} (n : Nat) (h : ∀ i, i < n → Cong (f i) (g i)) : Cong (Vscp.forUp f n) (Vscp.forUp g n) := by
  induction n with
  | zero => exact .pure _
  | succ n ih => exact .bind (ih fun i hi => h i (by omega)) fun _ => h n (by omega)
theorem read8 (a : Nat) : Cong (psRead8 a) (psRead8 a) := fun _ _ h => ⟨by simp [psRead8, h.ps], h⟩
theorem readMultiple (a n : Nat) : Cong (some <$> psReadMultiple a n) (some <$> psReadMultiple a n) := fun w w' h =>
  ⟨show some (psReadMultiple a n w).1 = some (psReadMultiple a n w').1 by simp [psReadMultiple, h.ps], h⟩
theorem readIdx (a n i : Nat) : Cong (Ps.readIdx a n i) (Ps.readIdx a n i) := .ite (fun _ => .read8 _) fun _ => .pure _
theorem emit (o : Out) : Cong (Vscp.emit o) (Vscp.emit o) := fun w w' h => ⟨rfl, h.ps, h.dm, by
  show actions (w'.out ++ [o]) = actions (w.out ++ [o])
  rw [DmProps.actions_append, DmProps.actions_append, h.acts]⟩
theorem markUb : Cong Vscp.markUb Vscp.markUb := fun _ _ h => ⟨rfl, h.ps, h.dm, h.acts⟩
theorem zone (c : Cfg) : Cong (DevData.getZone c) (DevData.getZone c) := .ite (fun _ => .read8 _) fun _ => .pure _
theorem subZone (c : Cfg) : Cong (DevData.getSubZone c) (DevData.getSubZone c) := .ite (fun _ => .read8 _) fun _ => .pure _

variable {c : Ctx} {cb : Callbacks} (hq : ∀ n, ∀ o ∈ cb n, quiet o)
include hq

theorem call (o : Out) : Cong (Vscp.emit o) (do Vscp.emit o; callback c cb) := by
  intro w w' h
  obtain ⟨-, h2⟩ := Cong.emit o w w' h
  exact ⟨rfl, h2.trans (callback_alike hq _)⟩

theorem execRow (m : Msg) (i : Nat) : Cong (Dm.execRow c m i) (Dm.execRowC c cb m i) := by
  unfold Dm.execRow Dm.execRowC
  refine .bind (.bind (.readIdx _ _ _) fun _ => .pure _) fun _ => .ite (fun _ => .bind ?_ fun _ => .bind (.ite (fun _ => ?_) fun _ => .pure _)
    fun _ => .bind (.zone _) fun _ => .bind (.subZone _) fun _ => .bind (.whenM fun _ => .markUb) fun _ => ?_) fun _ => .pure _
  · unfold Dm.readRow Ps.readDmMultiple
    refine .bind (.ite (fun _ => .readMultiple _ _) fun _ => .pure _) fun o => ?_
    cases o <;> exact .pure _
  · unfold Dm.readExtRow Ps.readDmExtMultiple
    refine .bind (.ite (fun _ => .readMultiple _ _) fun _ => .pure _) fun o => ?_
    cases o <;> exact .pure _
  · generalize Dm.rowAction c.toCfg _ _ _ _ m = o
    cases o with
    | none => exact .pure _
    | some o => exact .call hq _

theorem dmActions (m : Msg) : Cong (Dm.executeActions c m) (Dm.executeActionsC c cb m) :=
  .ite (fun _ => .forUp _ fun _ _ => .execRow hq _ _) fun _ => .markUb

theorem execRule (buf : List U8) (m : Msg) : Cong (DmNg.execRule buf m) (DmNg.execRuleC c cb buf m) := by
  unfold DmNg.execRule DmNg.execRuleC
  generalize buf[0]? = a, buf[1]? = b, buf[2]? = d
  cases a with
  | none => exact .markUb
  | some a =>
    cases b with
    | none => exact .markUb
    | some b =>
      cases d with
      | none => exact .markUb
      | some d =>
        dsimp only
        refine .ite (fun _ => .ite (fun _ => ?_) fun _ => .pure _) fun _ => .pure _
        rcases DmNg.getDecisionResult buf (a.toNat - 3) m with _ | _ | _
        · exact .markUb
        · exact .pure _
        · exact .call hq _

omit hq in
theorem getNextRule (buf : List U8) : Cong (DmNg.getNextRule c.toCfg buf) (DmNg.getNextRule c.toCfg buf) := by
  intro w w' h
  rw [Foot.ngGetNextRule_run, Foot.ngGetNextRule_run, h.dm]
  have e : ∀ i, (Ps.readDmNg c.toCfg i w').1 = (Ps.readDmNg c.toCfg i w).1 := fun i => by
    rw [Foot.ngRead_run, Foot.ngRead_run, h.ps]
  simp only [e]
  split
  · exact ⟨rfl, h⟩
  · split
    · exact ⟨rfl, h⟩
    · exact ⟨rfl, h.ps, rfl, h.acts⟩

theorem rulesLoop (m : Msg) (n : Nat) (buf : List U8) : Cong (DmNg.rulesLoop c m n buf) (DmNg.rulesLoopC c cb m n buf) := by
  induction n generalizing buf with
  | zero => exact .markUb
  | succ n ih =>
    unfold DmNg.rulesLoop DmNg.rulesLoopC
    refine .bind (.execRule hq _ _) fun _ => .bind (.getNextRule _) fun o => ?_
    cases o with
    | none => exact .pure _
    | some b => exact ih b

theorem ngActions (m : Msg) : Cong (DmNg.executeActions c m) (DmNg.executeActionsC c cb m) := by
  unfold DmNg.executeActions DmNg.executeActionsC
  refine .bind ?_ fun o => ?_
  · unfold DmNg.getFirstRule
    exact .bind (.readIdx _ _ _) fun _ => .bind (fun w w' h => ⟨rfl, h.ps, by simp [M.modify, h.dm], h.acts⟩) fun _ => .getNextRule _
  · cases o with
    | none => exact .pure _
    | some b => exact .rulesLoop hq _ _ _

end Cong

/-- C84: calls in callbacks which do not touch the persistent memory (events sent, log messages, alarm, time, …) change neither the
memory nor the executed actions: for every event an active node receives, matrix and rules execute the same actions with the same
parameters in the same order as if the callbacks did nothing. -/
theorem C84_actions (c : Ctx) {cb : Callbacks} (hq : ∀ n, ∀ o ∈ cb n, quiet o) (rx : Option Msg) (m : Msg) (w : W)
    (ha : w.v.st = .active) (hr : (readMessage c rx w).1 = some m) (hm : m.cls = 0 → c.protoNotify = false) :
    actions (stepOpC c cb (.process rx) w).2.out = actions (stepOp c (.process rx) w).2.out := by
  rw [← stepOpC_none, process_event c cb rx m w ha hr, process_event c _ rx m w ha hr, activeEventC_none]
  generalize (preProcess c rx w).2 = w1
  have h1 : Alike (Core.activeEvent c m w1).2 (Core.activeEventC c cb m w1).2 := by
    unfold Core.activeEvent Core.activeEventC
    rw [bind_run, bind_run]
    refine (Cong.bind (.whenM fun _ => .dmActions hq m) (fun _ => .whenM fun _ => .ngActions hq m) _ _ ?_).2
    by_cases hc : m.cls = CLASS_PROTOCOL
    · have hp : ¬ c.protoNotify = true := by rw [hm hc]; simp
      rw [if_pos hc, if_neg hp, if_pos hc, if_neg hp]
      unfold Core.handleProtocolClassTypeC
      rw [bind_run, whenM_run]
      split
      · exact callback_alike hq _
      · exact ⟨rfl, rfl, rfl⟩
    · rw [if_neg hc, if_neg hc]
      exact callback_alike hq _
  have h2 : ∀ (cb : Callbacks), (∀ n, ∀ o ∈ cb n, quiet o) → ∀ w : W,
      actions (Core.activeExtRead c (Core.activeHeartbeatC c cb w).2).2.out = actions w.out := by
    intro cb hq w
    obtain ⟨t, e1, e2⟩ := DmProps.Steps.noAction (Foot.activeExtRead (c := c) (bad := True) (Core.activeHeartbeatC c cb w).2) (by decide)
    rw [e1, DmProps.actions_append, e2, List.append_nil]
    cases hcu : c.customHb with
    | false =>
      have : Core.activeHeartbeatC c cb w = Core.activeHeartbeat c w := by
        unfold Core.activeHeartbeatC Core.activeHeartbeat
        rw [if_neg (by simp [hcu]), if_neg (by simp [hcu])]
      rw [this]
      obtain ⟨t, e1, e2⟩ := DmProps.Steps.noAction (Foot.activeHeartbeat (c := c) (bad := True) w) (by decide)
      rw [e1, DmProps.actions_append, e2, List.append_nil]
    | true =>
      unfold Core.activeHeartbeatC
      rw [if_pos hcu]
      simp only [bind_run, get_run, whenM_run]
      split
      · have h := (callback_alike (c := c) hq (addOut .customHeartbeat w)).acts
        have e : ∀ w t x, (timerStart t x w).2.out = w.out := by
          intro w t x
          rw [timerStart_run]
          dsimp only
          split <;> rfl
        show actions (timerStart Tmr.heartbeat c.hbPeriod (callback c cb (addOut .customHeartbeat w)).2).2.out = _
        rw [e, h]
        show actions (w.out ++ [.customHeartbeat]) = _
        rw [DmProps.actions_append]
        exact List.append_nil _
      · rfl
  rw [h2 cb hq, h2 _ (fun _ _ h => by simp at h)]
  exact h1.acts

/-- A memory with a row of the matrix which executes action 7 with parameter 9 for every event. -/
def exMem : Nat → U8 := fun a => if a = 1 then 5 else if a = 3 then 0x60 else if a = Ps.addrDm Ex.ctx + 1 then 0x80 else
  if a = Ps.addrDm Ex.ctx + 6 then 7 else if a = Ps.addrDm Ex.ctx + 7 then 9 else 0

/-- The application sends an event in the callback of the event, and in the one of the action; the action is the same. -/
example : (nodeC Ex.ctx (fun _ => [.sendEvent (Ex.msg 20 3 5 [0, 3, 4])]) allOk exMem [.process none, .process (some (Ex.msg 20 4 9 [1, 2, 3]))]).out.drop 3 =
      [.event (Ex.msg 20 4 9 [1, 2, 3]), .tx (Ex.msg 20 3 5 [0, 3, 4]) true, .action 7 9 (Ex.msg 20 4 9 [1, 2, 3]),
        .tx (Ex.msg 20 3 5 [0, 3, 4]) true] ∧
    (node Ex.ctx allOk exMem [.process none, .process (some (Ex.msg 20 4 9 [1, 2, 3]))]).out.drop 3 =
      [.event (Ex.msg 20 4 9 [1, 2, 3]), .action 7 9 (Ex.msg 20 4 9 [1, 2, 3])] := by decide +kernel

end Vscp.Callout
