/-
Property theorems: the persistent memory is written only if something asks for it (C95).
-/
import Verif.Lemmas.Wear
import Verif.Props.Probe

namespace Vscp.Wear
open M Spec Transport Safety Discovery

/-! ### Events of an active node -/

/-- A cycle writes what the handling of the event writes; everything else in it writes nothing. -/
theorem takes_stored {c : Ctx} {rx : Option Msg} {w : W} {m : Msg} (h : Takes c rx w m) (hm : m.cls = 0) :
    ∃ w1 t, (Core.handleProtocolClassType c m w1).2.out = w1.out ++ t ∧
      (∀ k : Comp, [Comp.epoch, .tm .epoch, .lb, .rx, .lg].contains k = false → k.same w w1) ∧
      stored w (Core.process c rx w).2 = storedIn t ∧ (.portRestore ∈ t → factoryReset w (Core.process c rx w).2) := by
  obtain ⟨w1, t1, ho1, hp, hs, htail⟩ := takes_cycle h hm
  obtain ⟨t2, h2, -⟩ := (handler_foot (c := c) (m := m) w1).outs
  obtain ⟨t3, h3, h3'⟩ := dry_steps htail.steps (by decide)
  rw [h2, ho1, List.append_assoc, List.append_assoc] at h3
  refine ⟨w1, t2, h2, hs, ?_, fun hr => ?_⟩
  · rw [stored_of h3, storedIn_append, storedIn_append, storedIn_nil h3', List.append_nil, storedIn_nil, List.nil_append]
    intro a b hm
    obtain ⟨_, h⟩ := hp _ hm
    cases h
  · rw [factory_of h3]
    exact List.mem_append_right _ (List.mem_append_left _ hr)

/-- C95: an event changes only what it is about: a segment heartbeat the CRC and the nickname; the events about nicknames the nickname; the
start of the boot loader its flag; writes of registers the flags, the user id, zone and sub-zone, and the decision matrices.  Otherwise the factory settings are restored,
which only a drop of the nickname and writes of registers can do. -/
theorem C95_event {c : Ctx} {rx : Option Msg} {w : W} {m : Msg} (h : Takes c rx w m) (hm : m.cls = 0) :
    (∀ a b, (a, b) ∈ stored w (stepOp c (.process rx) w).2 → target c m.typ a) ∨
    (factoryReset w (stepOp c (.process rx) w).2 ∧ m.typ ∈ ([8, 11, 25, 29, 30, 38] : List U8)) := by
  obtain ⟨w1, t, h1, -, h2, h3⟩ := takes_stored h hm
  have e : (stepOp c (.process rx) w).2 = (Core.process c rx w).2 := rfl
  rw [e, h2]
  obtain ⟨t', h1', h4⟩ := steps_outs (handler_foot (c := c) (m := m) w1)
  rw [h1] at h1'
  have := List.append_cancel_left h1'
  subst this
  rcases h4 with ⟨h4, hr⟩ | h4
  · exact .inr ⟨h3 h4, typeActs_restore hr⟩
  · refine .inl fun a b hm => ?_
    obtain ⟨x, hx, hr, he⟩ := h4 _ (mem_storedIn.mp hm)
    exact typeActs_target hx hr he

/-- A cycle of an active node with nothing to store. -/
theorem quiet_cycle {c : Ctx} {rx : Option Msg} {w : W} (ha : w.v.st = .active)
    (h : ∀ m, Takes c rx w m → m.cls = 0 → ¬ Asks c w m) :
    stored w (Core.process c rx w).2 = [] ∧ (Core.process c rx w).2.v.st = .active := by
  by_cases ht : ∃ m, m.cls = 0 ∧ Takes c rx w m
  · obtain ⟨m, hm, ht⟩ := ht
    obtain ⟨w1, t1, ho1, hp, hs, htail⟩ := takes_cycle ht hm
    have hask : ¬ Asks c w1 m := by
      have e1 := hs .nick (by decide)
      have e2 := hs .ps (by decide)
      simp only [Comp.same] at e1 e2
      have := h m ht hm
      unfold Asks at this ⊢
      rw [e1, e2]
      exact this
    have hd := dry_handler hask
    obtain ⟨t2, h2, h2'⟩ := dry_steps hd (by decide)
    obtain ⟨t3, h3, h3'⟩ := dry_steps htail.steps (by decide)
    rw [h2, ho1, List.append_assoc, List.append_assoc] at h3
    refine ⟨?_, ?_⟩
    · rw [stored_of h3, storedIn_append, storedIn_append, storedIn_nil h3', storedIn_nil h2', storedIn_nil]
      · rfl
      · intro a b hm
        obtain ⟨_, h⟩ := hp _ hm
        cases h
    · have e1 := htail.steps.same .st (by decide)
      have e2 := hd.same .st (by decide)
      have e3 := hs .st (by decide)
      simp only [Comp.same] at e1 e2 e3
      rw [e1, e2, e3, ha]
  · obtain ⟨w1, t1, ho1, hp, hs, htail⟩ := other_cycle (c := c) (rx := rx) ha (fun m hm h => ht ⟨m, hm, h⟩)
    obtain ⟨t3, h3, h3'⟩ := dry_steps htail.steps (by decide)
    rw [ho1, List.append_assoc] at h3
    refine ⟨?_, ?_⟩
    · rw [stored_of h3, storedIn_append, storedIn_nil h3', storedIn_nil]
      · rfl
      · intro a b hm
        rcases hp _ hm with ⟨_, _, h⟩ | ⟨_, h⟩ <;> cases h
    · have e1 := htail.steps.same .st (by decide)
      have e3 := hs .st (by decide)
      simp only [Comp.same] at e1 e3
      rw [e1, e3, ha]

/-- C95: a cycle of an active node writes nothing to the persistent memory, unless a protocol event for the framework asks for it. -/
theorem C95_quiet {c : Ctx} {rx : Option Msg} {w : W} (ha : w.v.st = .active)
    (h : ∀ m, Takes c rx w m → m.cls = 0 → ¬ Asks c w m) : stored w (stepOp c (.process rx) w).2 = [] := (quiet_cycle ha h).1

/-! ### Calls -/

/-- C95: the calls of the interface write nothing, other than the initialisation, the start of the discovery, and the factory restore. -/
theorem C95_calls {c : Ctx} {op : Op} (h : harmless op) (hp : ∀ rx, op ≠ .process rx) (w : W) : stored w (stepOp c op w).2 = [] := by
  obtain ⟨t, h1, h2⟩ := dry_steps (op_steps c op hp w) (by cases op <;> first | rfl | exact h.elim)
  rw [stored_of h1, storedIn_nil h2]

/-- C95: the start of the discovery writes the nickname only, once, and not if the discovery is already running. -/
theorem C95_start (c : Ctx) (w : W) :
    stored w (stepOp c .startNodeSegmentInit w).2 = if w.v.st = .init then [] else [(Ps.addrNickname c, 0xFF)] := by
  have e : (stepOp c .startNodeSegmentInit w).2 = (Core.startNodeSegmentInit c w).2 := rfl
  rw [e, Core.startNodeSegmentInit, bind_run, get_run, whenM_run]
  by_cases h : w.v.st = .init
  · rw [if_pos h, if_neg (fun hn => hn h)]
    simp [stored, storedIn]
  · rw [if_neg h, if_pos h, Core.changeToStateInit, bind_run, get_run, whenM_run, if_pos h, bind_run, bind_run, writeNick_run]
    simp [stored, storedIn, Core.NOT_INIT]

/-- The writes of a history are the writes of its parts. -/
theorem stored_trans {w w' w'' : W} {t t' : List Out} (h : w'.out = w.out ++ t) (h' : w''.out = w'.out ++ t') :
    stored w w'' = stored w w' ++ stored w' w'' := by
  have : w''.out = w.out ++ (t ++ t') := by rw [h', h, List.append_assoc]
  rw [stored_of h, stored_of h', stored_of this, storedIn_append]

theorem op_out (c : Ctx) (op : Op) (w : W) : ∃ t, (stepOp c op w).2.out = w.out ++ t := by
  by_cases hp : ∃ rx, op = .process rx
  · obtain ⟨rx, rfl⟩ := hp
    obtain ⟨t, h, -⟩ := (process_state c rx w).outs
    rw [pre_out] at h
    exact ⟨t, h⟩
  · obtain ⟨t, h, -⟩ := (op_steps c op (fun rx h => hp ⟨rx, h⟩) w).outs
    exact ⟨t, h⟩

theorem ops_out (c : Ctx) (ops : List Op) (w : W) : ∃ t, (runOps c ops w).out = w.out ++ t := by
  induction ops generalizing w with
  | nil => exact ⟨[], by simp [runOps]⟩
  | cons op ops ih =>
    obtain ⟨t, h⟩ := op_out c op w
    obtain ⟨t', h'⟩ := ih (stepOp c op w).2
    exact ⟨t ++ t', by rw [runOps, h', h, List.append_assoc]⟩

/-- C95: in normal operation the persistent memory is not written at all, however long it lasts: in every history of an active node in which nothing asks it to
store something, nothing is written, and the node stays active. -/
theorem C95_history {c : Ctx} (ops : List Op) (w : W) (ha : w.v.st = .active) (h : Undemanding c ops w) :
    stored w (runOps c ops w) = [] ∧ (runOps c ops w).v.st = .active := by
  induction ops generalizing w with
  | nil => simp [stored, storedIn, runOps, ha]
  | cons op ops ih =>
    obtain ⟨h1, h2, h3⟩ := h
    obtain ⟨t, ht⟩ := op_out c op w
    obtain ⟨t', ht'⟩ := ops_out c ops (stepOp c op w).2
    have key : stored w (stepOp c op w).2 = [] ∧ (stepOp c op w).2.v.st = .active := by
      by_cases hp : ∃ rx, op = .process rx
      · obtain ⟨rx, rfl⟩ := hp
        exact quiet_cycle ha (fun m ht hm => h2 rx m rfl ht hm)
      · have hp' : ∀ rx, op ≠ .process rx := fun rx h => hp ⟨rx, h⟩
        refine ⟨C95_calls h1 hp' w, ?_⟩
        have := op_same c op hp' w .st (by cases op <;> first | rfl | exact h1.elim)
        simp only [Comp.same] at this
        rw [this, ha]
    obtain ⟨h4, h5⟩ := ih _ key.2 h3
    rw [runOps, stored_trans ht ht', key.1, h4]
    exact ⟨rfl, h5⟩

/-! ### Nodes which are not active -/

/-- Nothing is written, or the nickname, once, with a change of the state. -/
def One (c : Ctx) (w w' : W) : Prop := ∃ t, w'.out = w.out ++ t ∧
  (storedIn t = [] ∨ storedIn t = [(Ps.addrNickname c, w'.v.nick)] ∧ w'.v.st ≠ w.v.st)

/-- From the given state. -/
def OneAt (c : Ctx) (s : St) {α : Type} (m : M α) : Prop := ∀ w, w.v.st = s → One c w (m w).2

section
variable {c : Ctx} {s : St} {α β : Type} {A : List Act}

theorem OneAt.dry {m : M α} (hf : Foot c True A m) (h : A.all Act.dry = true) : OneAt c s m := fun w _ => by
  obtain ⟨t, h1, h2⟩ := dry_steps (hf w) h
  exact ⟨t, h1, .inl (storedIn_nil h2)⟩

theorem OneAt.pure (a : α) : OneAt c s (pure a : M α) := .dry (A := []) (.pure _) rfl

theorem OneAt.bind {m : M α} {f : α → M β} (hf : Foot c True A m) (h : (A.all Act.dry && A.all (fun a => !a.touches .st)) = true)
    (h' : ∀ a, OneAt c s (f a)) : OneAt c s (m >>= f) := fun w hw => by
  rw [Bool.and_eq_true] at h
  obtain ⟨t, h1, h2⟩ := dry_steps (hf w) h.1
  have e := (hf w).same .st h.2
  simp only [Comp.same] at e
  obtain ⟨t', h1', h2'⟩ := h' (m w).1 (m w).2 (e.trans hw)
  refine ⟨t ++ t', by rw [bind_run, h1', h1, List.append_assoc], ?_⟩
  rw [storedIn_append, storedIn_nil h2, List.nil_append, bind_run, ← e]
  exact h2'

theorem OneAt.ite {p : Prop} [Decidable p] {a b : M α} (h : p → OneAt c s a) (h' : ¬p → OneAt c s b) : OneAt c s (if p then a else b) := by
  split
  · rename_i hp; exact h hp
  · rename_i hp; exact h' hp

theorem OneAt.whenM {p : Prop} [Decidable p] {a : M Unit} (h : p → OneAt c s a) : OneAt c s (whenM p a) := fun w hw => by
  rw [whenM_run]
  split
  · rename_i hp; exact h hp w hw
  · exact ⟨[], by simp, .inl rfl⟩

theorem OneAt.changeInit (b : Bool) : OneAt c s (Core.changeToStateInit c b) := fun w _ => by
  unfold Core.changeToStateInit
  rw [bind_run, get_run, whenM_run]
  split
  · rename_i h
    rw [bind_run, bind_run, writeNick_run]
    exact ⟨[.lamp .blinkFast, .psW (Ps.addrNickname c) Core.NOT_INIT], by simp, .inr ⟨rfl, fun e => h e.symm⟩⟩
  · exact ⟨[], by simp, .inl rfl⟩

/-- A new nickname, then the active state. -/
theorem OneAt.active (n : U8) (hs : s ≠ .active) {m : M Unit} (hf : Foot c True A m)
    (h : (A.all Act.dry && (A.all (fun a => !a.touches .st) && A.all (fun a => !a.touches .nick))) = true) :
    OneAt c s (do Core.writeNicknameId c n; m; Core.changeToStateActive c) := fun w hw => by
  rw [Bool.and_eq_true, Bool.and_eq_true] at h
  obtain ⟨h1, h2, h3⟩ := h
  rw [bind_run, writeNick_run]
  dsimp only
  rw [bind_run]
  generalize hw1 : ({ w with v := { w.v with nick := n }, ps := fun x => if x = Ps.addrNickname c then n else w.ps x, out := w.out ++ [.psW (Ps.addrNickname c) n] } : W) = w1
  have e1 : w1.v.st = s := by rw [← hw1]; exact hw
  have e2 : w1.v.nick = n := by rw [← hw1]
  have e3 : w1.out = w.out ++ [.psW (Ps.addrNickname c) n] := by rw [← hw1]
  obtain ⟨t, k1, k2⟩ := dry_steps (hf w1) h1
  have e4 := (hf w1).same .st h2
  have e5 := (hf w1).same .nick h3
  simp only [Comp.same] at e4 e5
  generalize (m w1).2 = w2 at *
  have hA := Foot.changeToStateActive (c := c) (bad := True) (A := [.st .active, .tx, .tm .heartbeat]) (by decide) w2
  obtain ⟨t', k1', k2'⟩ := dry_steps hA (by decide)
  have e6 := hA.same .nick (by decide)
  simp only [Comp.same] at e6
  have e7 := Probe.active_st c w2
  refine ⟨[.psW (Ps.addrNickname c) n] ++ (t ++ t'), by rw [k1', k1, e3]; simp, .inr ⟨?_, ?_⟩⟩
  · rw [storedIn_append, storedIn_append, storedIn_nil k2, storedIn_nil k2', e6, e5, e2]
    rfl
  · rw [e7, hw]; exact fun e => hs e.symm

theorem OneAt.guidDrop (hc : c.silent = true) (m : Msg) : OneAt c .startup (Core.handleGuidDropNickname c m) := by
  unfold Core.handleGuidDropNickname
  refine .whenM fun _ => .bind (A := [.guid, .tm .guidDrop]) (.whenM fun _ => .bind (.one (a := .guid) (by decide) fun w => ⟨_, rfl⟩) fun _ =>
    .timerStart _ (by decide)) (by decide) fun _ => .bind (A := []) (.timerRunning _) rfl fun _ => .ite (fun _ =>
    .dry (A := [.guid]) (.one (a := .guid) (by decide) fun w => ⟨_, rfl⟩) rfl) fun _ => .bind (A := []) ?_ rfl fun _ =>
    .bind (A := [.guid]) (.whenM fun _ => .one (a := .guid) (by decide) fun w => ⟨_, rfl⟩) (by decide) fun _ => ?_
  · unfold Core.guidPartEqual
    exact .bind (.guidRead _) fun _ => .bind (.guidRead _) fun _ => .bind (.guidRead _) fun _ => .bind (.guidRead _)
      fun _ => .pure _
  · intro w hw
    rw [bind_run, get_run]
    refine OneAt.whenM (s := .startup) (fun _ => .bind (A := [.tm .guidDrop]) (.timerStop (by decide)) (by decide) fun _ =>
      .bind (A := [.guid]) (.one (a := .guid) (by decide) fun w => ⟨_, rfl⟩) (by decide) fun _ => ?_) w hw
    dsimp only
    rw [if_pos ⟨hc, hw⟩]
    exact .bind (A := []) .get rfl fun _ => .whenM fun _ => .changeInit _

end

/-- C95: a cycle of a node which is not active writes nothing, or the nickname, once, and then its state changes.  So the
memory is not written again and again while a node looks for a nickname, or waits. -/
theorem C95_inactive {c : Ctx} {rx : Option Msg} {w : W} (h : w.v.st ≠ .active) :
    stored w (stepOp c (.process rx) w).2 = [] ∨
    (stored w (stepOp c (.process rx) w).2 = [(Ps.addrNickname c, (stepOp c (.process rx) w).2.v.nick)] ∧
      (stepOp c (.process rx) w).2.v.st ≠ w.v.st) := by
  have e : (stepOp c (.process rx) w).2 = (Core.process c rx w).2 := rfl
  rw [e]
  have hst := pre_same c rx w .st (by decide)
  have hout := pre_out c rx w
  simp only [Comp.same] at hst
  rw [process_split]
  suffices hs : One c (preProcess c rx w).2 (Core.dispatch c (preProcess c rx w).1 (preProcess c rx w).2).2 by
    obtain ⟨t, h1, h2⟩ := hs
    rw [hout] at h1
    rw [stored_of h1, ← hst]
    exact h2
  rw [← hst] at h
  generalize (preProcess c rx w).1 = r at *
  generalize (preProcess c rx w).2 = w1 at *
  unfold Core.dispatch
  rw [bind_run, get_run]
  dsimp only
  cases hs : w1.v.st with
  | active => exact absurd hs h
  | startup =>
    dsimp only
    rw [bind_run]
    suffices hh : OneAt c .startup (Core.stateStartup c r) from hh w1 hs
    unfold Core.stateStartup
    refine .bind (A := []) .get rfl fun w => .ite (fun _ => .ite (fun hc => ?_) fun _ => ?_) fun _ => ?_
    · cases r with
      | none => exact .pure _
      | some m => exact .whenM fun _ => .guidDrop hc m
    · exact .bind (A := []) .getStartUpControl rfl fun _ => .whenM fun _ => .changeInit _
    · exact .dry (A := [.st .active, .tx, .tm .heartbeat]) (.changeToStateActive (by decide)) (by decide)
  | init =>
    dsimp only
    rw [bind_run]
    suffices hh : OneAt c .init (Core.stateInit c r) from hh w1 hs
    intro w2 hw2
    unfold Core.stateInit
    rw [bind_run, get_run]
    dsimp only
    cases w2.v.ist with
    | probeMaster =>
      exact OneAt.dry (c := c) (A := [.tx, .ist, .tm .main]) (s := .init) (.bind (.tx (.inl (by simp)) (by decide)) fun _ => .whenM fun _ =>
        .bind (.one (a := .ist) (by decide) fun w => ⟨_, _, rfl⟩) fun _ => .timerStart _ (by decide)) (by decide) w2 hw2
    | probeMasterWait =>
      refine OneAt.bind (c := c) (s := .init) (A := []) (.timerRunning _) rfl (fun _ => .ite (fun _ => ?_) fun _ => .whenM fun _ => ?_) w2 hw2
      · exact .dry (A := [.ist]) (.one (a := .ist) (by decide) fun w => ⟨_, _, rfl⟩) rfl
      · exact fun w _ => ⟨[], by simp [Core.changeToStatePreActive], .inl rfl⟩
    | probe =>
      refine OneAt.dry (c := c) (A := [.tx, .ist, .tm .main, .st .idle, .idleEntered]) (s := .init) (.bind (.tx (.inl (by simp)) (by decide)) fun _ => .whenM fun _ =>
        .ite (fun _ => .bind (.timerStop (by decide)) fun _ => .changeToStateIdle (by decide)) fun _ =>
        .bind (.one (a := .ist) (by decide) fun w => ⟨_, _, rfl⟩) fun _ => .timerStart _ (by decide)) (by decide) w2 hw2
    | probeWait =>
      refine OneAt.bind (c := c) (s := .init) (A := []) (.timerRunning _) rfl (fun _ => .ite (fun _ => ?_) fun _ => .whenM fun _ => ?_) w2 hw2
      · exact OneAt.active (A := []) _ (by decide) (m := pure ()) (.pure _) rfl
      · exact .dry (A := [.tm .main, .ist]) (.bind (.timerStop (by decide)) fun _ => .one (a := .ist) (by decide) fun w => ⟨_, _, rfl⟩) rfl
  | preActive =>
    dsimp only
    rw [bind_run]
    suffices hh : OneAt c .preActive (Core.statePreActive c r) from hh w1 hs
    unfold Core.statePreActive
    refine .bind (A := []) (.timerRunning _) rfl fun _ => .ite (fun _ => .changeInit _) fun _ => ?_
    cases r with
    | none => exact .pure _
    | some m =>
      exact .whenM fun _ => .bind (A := [.tm .main]) (.timerStop (by decide)) (by decide) fun _ =>
        .active (A := [.tx]) _ (by decide) (.txVoid (.inl (by simp)) (by decide)) (by decide)
  | reset =>
    dsimp only
    rw [bind_run]
    exact OneAt.dry (c := c) (s := .reset) .stateReset (by decide) w1 hs
  | idle => exact ⟨[], by simp, .inl rfl⟩
  | error => exact ⟨[], by simp, .inl rfl⟩

/-- C95: a node which waits for its reset, is idle, or in error writes nothing. -/
theorem C95_stopped {c : Ctx} {rx : Option Msg} {w : W} (h : w.v.st = .reset ∨ w.v.st = .idle ∨ w.v.st = .error) :
    stored w (stepOp c (.process rx) w).2 = [] := by
  obtain ⟨t, h1, h2⟩ := dry_steps (process_state c rx w) (by rcases h with h | h | h <;> (rw [h]; decide))
  rw [pre_out] at h1
  have e : (stepOp c (.process rx) w).2 = (Core.process c rx w).2 := rfl
  rw [e, stored_of h1, storedIn_nil h2]

/-! ### Exact writes -/

/-- C95: a segment heartbeat with another CRC writes the CRC, and, unless the node was initialised by the segment master, the nickname. -/
theorem C95_segment {c : Ctx} {rx : Option Msg} {w : W} {m : Msg} {crc : U8} (hT : Takes c rx w m) (hm : m.cls = 0) (h1 : m.typ = 1)
    (hseg : c.hbSegment = true) (h2 : (payload m)[0]? = some crc) (hne : crc ≠ w.ps (Ps.addrSegCrc c)) :
    stored w (stepOp c (.process rx) w).2 =
      (Ps.addrSegCrc c, crc) :: (if w.v.probe = 0 then [] else [(Ps.addrNickname c, 0xFF)]) := by
  obtain ⟨w1, t, ho, hs, e, -⟩ := takes_stored hT hm
  have e' : (stepOp c (.process rx) w).2 = (Core.process c rx w).2 := rfl
  rw [e', e]
  obtain ⟨hsz, hd⟩ := Time.payload_size h2
  have hd : m.data[0] = crc := by simpa using hd
  have g1 := hs .ps (by decide)
  have g2 := hs .st (by decide)
  have g4 := hs .init (by decide)
  simp only [Comp.same] at g1 g2 g4
  have hst : w1.v.st ≠ .init := by rw [g2, hT.1]; decide
  have hn : w1.ps (Ps.addrSegCrc c) ≠ m.data[0] := by rw [g1, hd]; exact fun h => hne h.symm
  rw [handler1 h1, whenM_run, if_pos hseg, Time.heartbeat_parts hsz] at ho
  have ht : ∃ t', (Time.timePart c m (Time.crcPart c m w1).2).2.out = (Time.crcPart c m w1).2.out ++ t' ∧ storedIn t' = [] := by
    have hf : Foot c True [.epochSet, .timeUpdate] (Time.timePart c m) := .whenM fun _ =>
      .bind (.one (a := .epochSet) (by decide) fun w => ⟨_, rfl⟩) fun _ => .whenM fun _ => .one (a := .timeUpdate) (by decide) fun w => ⟨_, rfl⟩
    obtain ⟨t', k1, k2⟩ := dry_steps (hf (Time.crcPart c m w1).2) (by decide)
    exact ⟨t', k1, storedIn_nil k2⟩
  obtain ⟨t', k1, k2⟩ := ht
  have hcrc : ∃ t2, (Time.crcPart c m w1).2.out = w1.out ++ t2 ∧ storedIn t2 =
      (Ps.addrSegCrc c, crc) :: (if w.v.probe = 0 then [] else [(Ps.addrNickname c, 0xFF)]) := by
    unfold Time.crcPart Ps.readSegCrc Ps.writeSegCrc
    rw [bind_run, psRead8_run]
    dsimp only
    rw [whenM_run, if_pos hn, bind_run, psWrite8_run, bind_run, get_run]
    dsimp only
    rw [whenM_run, g4.2]
    by_cases hp : w.v.probe = 0
    · rw [if_neg (fun h => h hp), if_pos hp]
      exact ⟨[.psW (Ps.addrSegCrc c) m.data[0]], rfl, by rw [hd]; rfl⟩
    · have hp' : w.v.probe ≠ Core.MASTER := hp
      rw [if_pos hp', if_neg hp, Core.changeToStateInit, bind_run, get_run, whenM_run, if_pos hst, bind_run, bind_run, writeNick_run]
      exact ⟨[.psW (Ps.addrSegCrc c) m.data[0], .lamp .blinkFast, .psW (Ps.addrNickname c) Core.NOT_INIT], by simp, by rw [hd]; rfl⟩
  obtain ⟨t2, k3, k4⟩ := hcrc
  rw [k3, List.append_assoc] at k1
  rw [k1] at ho
  rw [← List.append_cancel_left ho, storedIn_append, k2, List.append_nil, k4]

/-! ### Examples -/

/-- An active node. -/
def exNode : W := node Ex.ctx allOk (mem 0x60) [.process none]

/-- A segment heartbeat with the known CRC, and a write of a register of another node, ask for nothing; with another CRC, and to the node, they do. -/
example : exNode.v.st = .active ∧ exNode.v.nick = 5 ∧ Undemanding Ex.ctx [.tick 1000, .process (some (Ex.msg 0 1 0 [0])), .process (some (Ex.msg 0 11 1 [6, 0x84, 3]))] exNode ∧
    ¬ Undemanding Ex.ctx [.process (some (Ex.msg 0 1 0 [17]))] exNode ∧ ¬ Undemanding Ex.ctx [.process (some (Ex.msg 0 11 1 [5, 0x84, 3]))] exNode ∧
    stored exNode (stepOp Ex.ctx (.process (some (Ex.msg 0 1 0 [17]))) exNode).2 = [(2, 17), (1, 0xFF)] ∧
    stored exNode (stepOp Ex.ctx (.process (some (Ex.msg 0 11 1 [5, 0x84, 3]))) exNode).2 = [(4, 3)] := by
  have key : ∀ (w : W) (m m' : Msg), (readMessage Ex.ctx (some m) w).1 = some m → Takes Ex.ctx (some m) w m' → m' = m := fun w m m' h ht => by
    rw [ht.2.1] at h
    exact Option.some.inj h
  refine ⟨by decide +kernel, by decide +kernel, ⟨trivial, fun rx m h => by simp at h, trivial, fun rx m h ht hm => ?_, trivial,
    fun rx m h ht hm => ?_, trivial⟩, fun h => ?_, fun h => ?_, by decide +kernel, by decide +kernel⟩
  · cases h
    rw [key _ _ m (by decide +kernel) ht]
    decide +kernel
  · cases h
    rw [key _ _ m (by decide +kernel) ht]
    decide +kernel
  · exact h.2.1 _ (Ex.msg 0 1 0 [17]) rfl ⟨by decide +kernel, by decide +kernel, by decide⟩ rfl (by decide +kernel)
  · exact h.2.1 _ (Ex.msg 0 11 1 [5, 0x84, 3]) rfl ⟨by decide +kernel, by decide +kernel, by decide⟩ rfl (by decide +kernel)

/-- A node without a nickname which starts the discovery writes the nickname, once. -/
example : let w := node Ex.ctx allOk (fun a => if a = 3 then 0x60 else 0xFF) []
    w.v.st = .startup ∧ stored w (stepOp Ex.ctx (.process none) w).2 = [(1, 0xFF)] ∧ (stepOp Ex.ctx (.process none) w).2.v.st = .init := by
  decide +kernel

/-- A drop of the nickname with the option to restore the factory settings. -/
example : Takes Ex.ctx (some (Ex.msg 0 8 1 [5, 0x40])) exNode (Ex.msg 0 8 1 [5, 0x40]) ∧
    factoryReset exNode (stepOp Ex.ctx (.process (some (Ex.msg 0 8 1 [5, 0x40]))) exNode).2 := by
  refine ⟨⟨by decide +kernel, by decide +kernel, by decide⟩, ?_⟩
  unfold factoryReset
  decide +kernel

end Vscp.Wear
