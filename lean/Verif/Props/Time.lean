/-
Property theorems: the heartbeat of the node (C39), the time since epoch (C40) and the change of the segment (C42).
-/
import Verif.Lemmas.Heartbeat
import Verif.Lemmas.Types
import Verif.Lemmas.Bits
import Verif.Props.Nickname

namespace Vscp.Time
open M Spec Transport Safety Discovery

/-! ### C39: heartbeat -/

/-- Enabling the heartbeat stops it: `vscp_core_enableHeartbeat` does not look at its parameter. -/
theorem C39_violated :
    (let w := node Ex.ctx allOk (mem 0x60) [.process none, .enableHeartbeat true, .tick 60000]
     w.v.st = .active ∧ beats Ex.ctx none w = 0) ∧
    (let w := node Ex.ctx allOk (mem 0x60) [.process none, .enableHeartbeat false, .enableHeartbeat false, .tick 60000]
     w.v.st = .active ∧ beats Ex.ctx none w = 1) := by
  unfold beats madeBy
  decide +kernel

theorem countP_none {t : List Out} (h : ∀ o ∈ t, NoBeat o) : t.countP isHeartbeat = 0 :=
  List.countP_eq_zero.mpr fun o ho => by rw [h o ho]; exact Bool.false_ne_true

theorem readOpt_calls (c : Ctx) (w : W) : ∃ t, (Core.activeExtRead c w).2.out = w.out ++ t ∧ ∀ o ∈ t, NoBeat o := by
  unfold Core.activeExtRead Core.extendedPageReadRegister Core.tx
  refine Calls.bind .get (fun _ => .ite (fun _ => .bind ?_ fun _ => .pure _) fun _ => .pure _) w
  exact .bind .get fun _ => .whenM fun _ => .bind (.beatless (.extReadLoop 4 _ _ _) (by decide)) fun _ =>
    .bind (.bind .get fun _ => .write0 (by simp [CLASS_PROTOCOL])) fun _ => .whenM fun _ => .setV _

/-- The calls of a cycle of an active node: those for the event, the heartbeat, and those of an extended page read. -/
theorem active_calls {c : Ctx} {rx : Option Msg} {w : W} (ha : w.v.st = .active) : ∃ w1 t1 t2,
    w1 = (Core.activeEventOpt c (readMessage c rx w).1 (preProcess c rx w).2).2 ∧ w1.out = w.out ++ t1 ∧ (Due c w1 ↔ Due c w) ∧
    madeBy c rx w = t1 ++ (if Due c w then
      [if c.customHb = true then .customHeartbeat else .tx (beatFrame c w1) (c.txOk w1.out.length)] else []) ++ t2 ∧
    (∀ o ∈ t1, NoBeat o) ∧ ∀ o ∈ t2, NoBeat o := by
  obtain ⟨w1, hw1⟩ : ∃ w1 : W, w1 = (Core.activeEventOpt c (readMessage c rx w).1 (preProcess c rx w).2).2 := ⟨_, rfl⟩
  have hev : (∃ t1, w1.out = w.out ++ t1 ∧ ∀ o ∈ t1, NoBeat o) ∧ Steps c True eventActs (preProcess c rx w).2 w1 := by
    rw [hw1, ← pre_out c rx w]
    cases (readMessage c rx w).1 with
    | none => exact ⟨⟨[], by rw [Core.activeEventOpt]; simp, by simp⟩, .refl _⟩
    | some m => exact ⟨Calls.event0 m _, Foot.activeEvent (fun _ => trivial) (fun _ _ => trivial) (fun _ _ => trivial) _⟩
  obtain ⟨⟨t1, ht1, hn1⟩, hs⟩ := hev
  have hdue : Due c w1 ↔ Due c w := by
    unfold Due
    have e1 := Comp.same_trans (pre_same c rx w .hb (by decide)) (hs.same .hb (by decide))
    have e2 := Comp.same_trans (pre_same c rx w .ok (by decide)) (hs.same .ok (by decide))
    have e3 := Comp.same_trans (pre_same c rx w (.tm .heartbeat) (by decide)) (hs.same (.tm .heartbeat) (by decide))
    simp only [Comp.same] at e1 e2 e3
    rw [e1, e2, e3]
  obtain ⟨t2, ht2, hn2⟩ := readOpt_calls c (Core.activeHeartbeat c w1).2
  refine ⟨w1, t1, t2, hw1, ht1, hdue, ?_, hn1, hn2⟩
  show (Core.process c rx w).2.out.drop w.out.length = _
  rw [active_parts ha, ← hw1, ht2]
  by_cases hd : Due c w
  · rw [if_pos hd, ((heartbeat_run c w1).1 (hdue.mpr hd)).1]
    rw [show w1.out ++ [if c.customHb = true then Out.customHeartbeat else .tx (beatFrame c w1) (c.txOk w1.out.length)] =
      w.out ++ (t1 ++ [if c.customHb = true then Out.customHeartbeat else .tx (beatFrame c w1) (c.txOk w1.out.length)]) by
      rw [ht1, List.append_assoc], List.append_assoc, List.drop_left]
  · rw [if_neg hd, (heartbeat_run c w1).2 (fun h => hd (hdue.mp h)), ht1, List.append_assoc, List.drop_left, List.append_nil]

theorem due_iff (c : Ctx) (w : W) : Due c w ↔ c.hbNode = true ∧ w.v.hbOn = true ∧ (w.tm.ok .heartbeat = true → w.tm.rem .heartbeat = 0) := by
  unfold Due
  cases w.tm.ok .heartbeat <;> simp

/-- C39, partial: in a cycle an active node sends one heartbeat if the heartbeat is configured and switched on and its timer is not
running, and none otherwise.  A node in another state sends none.  Missing: the switch follows the parity of the calls and not their
parameter, see `C39_violated` and `C39_switch_partial`. -/
theorem C39_cycle_partial (c : Ctx) (rx : Option Msg) (w : W) : beats c rx w =
    if w.v.st = .active ∧ c.hbNode = true ∧ w.v.hbOn = true ∧ (w.tm.ok .heartbeat = true → w.tm.rem .heartbeat = 0) then 1 else 0 := by
  unfold beats
  by_cases ha : w.v.st = .active
  · obtain ⟨w1, t1, t2, -, -, -, hm, h1, h2⟩ := active_calls (c := c) (rx := rx) ha
    rw [hm, List.countP_append, List.countP_append, countP_none h1, countP_none h2]
    simp only [ha, true_and, ← due_iff]
    split
    · split <;> simp [isHeartbeat, beatFrame]
    · simp
  · rw [if_neg (fun h => ha h.1)]
    have hst : (preProcess c rx w).2.v.st ≠ .active := fun h => ha ((pre_same c rx w .st (by decide)).symm.trans h)
    obtain ⟨t, ht, hn⟩ := Calls.dispatch0 (c := c) (rx := (preProcess c rx w).1) hst
    rw [show (Core.dispatch c (preProcess c rx w).1 (preProcess c rx w).2).2 = (Core.process c rx w).2 by rw [process_split], pre_out] at ht
    rw [madeBy, show (stepOp c (.process rx) w).2.out = w.out ++ t from ht, List.drop_left, countP_none hn]

/-- The heartbeat of an idle active node: class 20, type 9, priority 3, from the node, with the index 0, the zone and the sub-zone. -/
theorem C39_frame_partial (c : Ctx) (rx : Option Msg) (w : W) (ha : w.v.st = .active) (hr : (readMessage c rx w).1 = none)
    (hb : beats c rx w = 1) (hc : c.customHb = false) : ∃ m ok, .tx m ok ∈ madeBy c rx w ∧ m.cls = 20 ∧ m.typ = 9 ∧ m.prio = 3 ∧ m.oAddr = (Core.readNicknameId w).1 ∧
      payload m = [0, (DevData.getZone c w).1, (DevData.getSubZone c w).1] := by
  have hd : Due c w := by
    rw [C39_cycle_partial] at hb
    split at hb
    · rename_i h
      exact (due_iff c w).mpr h.2
    · exact absurd hb (by decide)
  obtain ⟨w1, t1, t2, hw1, -, -, hm, -, -⟩ := active_calls (c := c) (rx := rx) ha
  rw [hr] at hw1
  have hw1 : w1 = (preProcess c rx w).2 := hw1
  have hn := pre_same c rx w .nick (by decide)
  have hp := pre_same c rx w .ps (by decide)
  rw [← hw1] at hn hp
  have hz : (DevData.getZone c w1).1 = (DevData.getZone c w).1 := by
    unfold DevData.getZone Ps.readZone
    simp only [ite_run]
    split
    · exact congrFun hp _
    · rfl
  have hsz : (DevData.getSubZone c w1).1 = (DevData.getSubZone c w).1 := by
    unfold DevData.getSubZone Ps.readSubZone
    simp only [ite_run]
    split
    · exact congrFun hp _
    · rfl
  refine ⟨beatFrame c w1, c.txOk w1.out.length, ?_, rfl, rfl, rfl, hn, ?_⟩
  · rw [hm, if_pos hd, if_neg (by simp [hc])]
    simp
  · rw [← hz, ← hsz]
    rfl

/-- Is the heartbeat switched on after the given number of calls? -/
theorem runOps_hb (c : Ctx) (ops : List Op) (w : W) : (runOps c ops w).v.hbOn = (w.v.hbOn ^^ decide (switches ops % 2 = 1)) := by
  induction ops generalizing w with
  | nil => simp [runOps, switches]
  | cons op ops ih =>
    rw [runOps, ih]
    by_cases he : ∃ b, op = .enableHeartbeat b
    · obtain ⟨b, rfl⟩ := he
      have e : (stepOp c (.enableHeartbeat b) w).2.v.hbOn = !w.v.hbOn := rfl
      rw [e]
      have h2 : switches (.enableHeartbeat b :: ops) = switches ops + 1 := rfl
      rw [h2]
      have : decide ((switches ops + 1) % 2 = 1) = !decide (switches ops % 2 = 1) := by
        rcases Nat.mod_two_eq_zero_or_one (switches ops) with h | h
        · rw [h, show (switches ops + 1) % 2 = 1 by omega]; rfl
        · rw [h, show (switches ops + 1) % 2 = 0 by omega]; rfl
      rw [this]
      cases w.v.hbOn <;> cases decide (switches ops % 2 = 1) <;> rfl
    · have h1 : (stepOp c op w).2.v.hbOn = w.v.hbOn := by
        by_cases hp : ∃ rx, op = .process rx
        · obtain ⟨rx, rfl⟩ := hp
          have h1 := pre_same c rx w .hb (by decide)
          have h2 := (process_state c rx w).same .hb (by cases w.v.st <;> decide)
          exact h2.trans h1
        · exact op_same c op (fun rx h => hp ⟨rx, h⟩) w .hb
            (by cases op <;> first | exact absurd ⟨_, rfl⟩ hp | exact absurd ⟨_, rfl⟩ he | rfl)
      have h2 : switches (op :: ops) = switches ops := by
        cases op <;> first | exact absurd ⟨_, rfl⟩ he | rfl
      rw [h1, h2]

/-- C39, partial: the heartbeat is switched on at power up, and every call of `vscp_core_enableHeartbeat` switches it over; nothing else does.
Missing: the parameter of the call has no effect, see `C39_violated`. -/
theorem C39_switch_partial (c : Ctx) (ok : Tmr → Bool) (ps : Nat → U8) (ops : List Op) :
    (node c ok ps ops).v.hbOn = decide (switches ops % 2 = 0) := by
  unfold node
  rw [runOps_hb]
  have h1 : switches (.init ok :: ops) = switches ops := rfl
  have h2 : (powerUp ps).v.hbOn = true := rfl
  rw [h1, h2]
  rcases Nat.mod_two_eq_zero_or_one (switches ops) with h | h <;> rw [h] <;> rfl

/-- Calls which do not initialise the node again. -/
def noInit (op : Op) : Prop := ∀ ok, op ≠ .init ok

theorem op_hb (c : Ctx) (op : Op) (h : noInit op) (ht : ∀ ms, op ≠ .tick ms) (w : W) : HbTr c w (stepOp c op w).2 := by
  by_cases hp : ∃ rx, op = .process rx
  · obtain ⟨rx, rfl⟩ := hp
    exact HbM.process rx w
  · exact .steps (op_steps c op (fun rx h => hp ⟨rx, h⟩) w)
      (by cases op <;> first | exact absurd ⟨_, rfl⟩ hp | exact absurd rfl (h _) | exact absurd rfl (ht _) | rfl)
      (by cases op <;> first | exact absurd ⟨_, rfl⟩ hp | exact absurd rfl (h _) | exact absurd rfl (ht _) | rfl)

/-- The heartbeat timer through a history. -/
theorem runOps_timer {c : Ctx} (ops : List Op) (h : ∀ op ∈ ops, noInit op) (w : W) :
    (runOps c ops w).tm.ok = w.tm.ok ∧
    (c.hbPeriod.toNat ≤ ((runOps c ops w).tm.rem .heartbeat).toNat + elapsed ops ∨
      (w.tm.rem .heartbeat).toNat ≤ ((runOps c ops w).tm.rem .heartbeat).toNat + elapsed ops) ∧
    (((runOps c ops w).tm.rem .heartbeat).toNat ≤ c.hbPeriod.toNat ∨
      ((runOps c ops w).tm.rem .heartbeat).toNat ≤ (w.tm.rem .heartbeat).toNat) := by
  induction ops generalizing w with
  | nil => simp [runOps, elapsed]
  | cons op ops ih =>
    obtain ⟨h1, h2, h3⟩ := ih (fun o ho => h o (by simp [ho])) (stepOp c op w).2
    rw [runOps]
    by_cases ht : ∃ ms, op = .tick ms
    · obtain ⟨ms, rfl⟩ := ht
      have hr := tick_rem c ms w .heartbeat
      have hk : (stepOp c (.tick ms) w).2.tm.ok = w.tm.ok := rfl
      have he : elapsed (.tick ms :: ops) = ms + elapsed ops := rfl
      rw [hk] at h1
      rw [hr] at h2 h3
      rw [he]
      exact ⟨h1, by omega, by omega⟩
    · have hb := op_hb c op (h op (by simp)) (fun ms e => ht ⟨ms, e⟩) w
      have he : elapsed (op :: ops) = elapsed ops := by
        cases op <;> first | exact absurd ⟨_, rfl⟩ ht | rfl
      rw [he]
      refine ⟨h1.trans hb.1, ?_, ?_⟩
      · rcases hb.2 with e | e <;> rw [e] at h2
        · exact h2
        · exact .inl (by omega)
      · rcases hb.2 with e | e <;> rw [e] at h3
        · exact h3
        · exact .inl (by omega)

/-- C39: two cycles which send a heartbeat are at least one period apart, whatever is received or called between them.
The hypothesis is that the heartbeat timer exists, and that `vscp_core_init` is not called between. -/
theorem C39_spacing_partial {c : Ctx} {rx rx' : Option Msg} {w : W} {ops : List Op} (hk : w.tm.ok .heartbeat = true)
    (hi : ∀ op ∈ ops, noInit op) (h1 : beats c rx w = 1) (h2 : beats c rx' (runOps c ops (stepOp c (.process rx) w).2) = 1) :
    c.hbPeriod.toNat ≤ elapsed ops := by
  rw [C39_cycle_partial] at h1 h2
  split at h1 <;> rename_i hd1
  · split at h2 <;> rename_i hd2
    · obtain ⟨hk', h3, -⟩ := runOps_timer (c := c) ops hi (stepOp c (.process rx) w).2
      have hok : (stepOp c (.process rx) w).2.tm.ok = w.tm.ok := (HbM.process rx w).1
      have hrem : (stepOp c (.process rx) w).2.tm.rem .heartbeat = c.hbPeriod := by
        show (Core.process c rx w).2.tm.rem .heartbeat = _
        rw [active_parts hd1.1]
        obtain ⟨w1, t1, t2, hw1, -, hdue, -, -, -⟩ := active_calls (c := c) (rx := rx) hd1.1
        rw [← hw1]
        have hx : ((Core.activeExtRead c (Core.activeHeartbeat c w1).2).2.tm.rem .heartbeat) = (Core.activeHeartbeat c w1).2.tm.rem .heartbeat :=
          Steps.same (c := c) (bad := True) (Foot.activeExtRead _) (.tm .heartbeat) (by decide)
        have hd : Due c w1 := hdue.mpr ((due_iff c w).mpr hd1.2)
        have hk1 : w1.tm.ok .heartbeat = true := by
          have hs : Steps c True eventActs (preProcess c rx w).2 w1 := by
            rw [hw1]
            cases (readMessage c rx w).1 with
            | none => exact .refl _
            | some m => exact Foot.activeEvent (fun _ => trivial) (fun _ _ => trivial) (fun _ _ => trivial) _
          have := Comp.same_trans (pre_same c rx w .ok (by decide)) (hs.same .ok (by decide))
          simp only [Comp.same] at this
          rw [this]; exact hk
        rw [hx, ((heartbeat_run c w1).1 hd).2]
        simp [hk1]
      rw [hrem] at h3
      have hz := hd2.2.2.2 (by rw [hk', hok]; exact hk)
      rw [hz] at h3
      have : (0 : U16).toNat = 0 := rfl
      omega
    · exact absurd h2 (by decide)
  · exact absurd h1 (by decide)

/-- C39: while the node is active and the heartbeat is switched on, a cycle after a whole period sends a heartbeat. -/
theorem C39_due_partial (c : Ctx) (ok : Tmr → Bool) (ps : Nat → U8) (ops : List Op) (hi : ∀ op ∈ ops, noInit op) (ms : Nat) (rx : Option Msg)
    (hms : c.hbPeriod.toNat ≤ ms) (hb : c.hbNode = true) (ha : (node c ok ps ops).v.st = .active) (hs : switches ops % 2 = 0) :
    beats c rx (runOps c [.tick ms] (node c ok ps ops)) = 1 := by
  rw [C39_cycle_partial, if_pos]
  refine ⟨ha, hb, ?_, fun _ => ?_⟩
  · exact (C39_switch_partial c ok ps ops).trans (by simp [hs])
  · apply BitVec.eq_of_toNat_eq
    show ((stepOp c (.tick ms) (node c ok ps ops)).2.tm.rem .heartbeat).toNat = 0
    rw [tick_rem]
    have h := (runOps_timer (c := c) ops hi (stepOp c (.init ok) (powerUp ps)).2).2.2
    have e : runOps c ops (stepOp c (.init ok) (powerUp ps)).2 = node c ok ps ops := rfl
    rw [e] at h
    have h0 : (stepOp c (.init ok) (powerUp ps)).2.tm.rem .heartbeat = 0 := by
      obtain ⟨w1, h1, h2⟩ := init_steps c ok (powerUp ps)
      have := h2.same (.tm .heartbeat) (by decide)
      have e : w1.tm.rem .heartbeat = 0 := by rw [h1.tm]; simp
      exact this.trans e
    rw [h0] at h
    have : (0 : U16).toNat = 0 := rfl
    omega

/-- The hypotheses of the theorems above can be met: a node sends heartbeats after 30 and 60 seconds and not in between. -/
example : let w := node Ex.ctx allOk (mem 0x60) [.process none, .tick 30000]
    let ops : List Op := [.tick 15000, .process none, .tick 15000]
    beats Ex.ctx none w = 1 ∧ beats Ex.ctx none (runOps Ex.ctx ops (stepOp Ex.ctx (.process none) w).2) = 1 ∧
    beats Ex.ctx none (runOps Ex.ctx [.tick 15000] (stepOp Ex.ctx (.process none) w).2) = 0 ∧ elapsed ops = 30000 := by
  unfold beats madeBy
  decide +kernel

/-! ### C40: time since epoch -/

/-- The second is over: the timer of the time is not running. -/
abbrev secondOver (w : W) : Prop := w.tm.ok .epoch = true ∧ w.tm.rem .epoch = 0

/-- Before the state machine: the time is counted. -/
theorem pre_time (c : Ctx) (rx : Option Msg) (w : W) :
    (preProcess c rx w).2.v.epoch = w.v.epoch + (if secondOver w then 1 else 0) ∧
    (preProcess c rx w).2.tm.rem .epoch = (if secondOver w then 1000 else w.tm.rem .epoch) := by
  unfold preProcess
  rw [bind_run, bind_run, setV_run, bind_run, get_run]
  obtain ⟨tp, ub, hr⟩ := readMessage_frame' c rx w
  rw [hr]
  generalize (readMessage c rx w).1.getD w.v.rx = rxv
  simp only
  rw [bind_run]
  have hlog : ∃ lg, (whenM (c.logger = true) (Logger.handleEvent c.toCfg rxv)
      { w with v := { w.v with rx := rxv }, tp := tp, ub := ub }).2 =
      { w with v := { w.v with rx := rxv }, tp := tp, ub := ub, lg := lg } := by
    unfold Logger.handleEvent Logger.enable Logger.setLogLevel Ps.readLogId
    simp only [whenM_run, ite_run, bind_run, modify_run, psRead8_run, pure_run]
    repeat' split
    all_goals exact ⟨_, rfl⟩
  obtain ⟨lg, hlg⟩ := hlog
  rw [hlg, bind_run, pure_run]
  unfold Core.epochTick secondOver
  simp only [bind_run, get_run, timerRunning_run, whenM_run, setV_run, timerStart_run]
  have hc : (w.tm.ok .epoch = true ∧ (w.tm.ok .epoch && w.tm.rem .epoch != 0) = false) ↔ (w.tm.ok .epoch = true ∧ w.tm.rem .epoch = 0) := by
    cases w.tm.ok .epoch <;> simp
  simp only [hc]
  by_cases h : w.tm.ok .epoch = true ∧ w.tm.rem .epoch = 0
  · simp only [if_pos h, if_pos h.1]
    exact ⟨trivial, rfl⟩
  · simp only [if_neg h]
    exact ⟨by simp, trivial⟩

/-- Only a segment heartbeat of at least five bytes sets the time. -/
theorem heartbeat_time {c : Ctx} {m : Msg} (w : W) : (Core.handleHeartbeat c m w).2.v.epoch =
    if 5 ≤ m.size.toNat then Core.epochOf m else w.v.epoch := by
  unfold Core.handleHeartbeat
  rw [whenM_run]
  by_cases h0 : 0 < m.size.toNat
  · rw [if_pos h0, bind_run, bind_run]
    obtain ⟨w1, hw1⟩ : ∃ w1, w1 = (whenM ((Ps.readSegCrc c w).1 ≠ m.data[0]) (do
      Ps.writeSegCrc c m.data[0]
      let w ← get
      whenM (w.v.probe ≠ Core.MASTER) (Core.changeToStateInit c true)) (Ps.readSegCrc c w).2).2 := ⟨_, rfl⟩
    rw [← hw1]
    have h1 : w1.v.epoch = w.v.epoch := by
      have hf : Foot c True [.seg, .st .init, .ist, .nick] (whenM ((Ps.readSegCrc c w).1 ≠ m.data[0]) (do
          Ps.writeSegCrc c m.data[0]
          let w ← get
          whenM (w.v.probe ≠ Core.MASTER) (Core.changeToStateInit c true))) :=
        .whenM fun _ => .bind (.one (a := .seg) (by decide) fun w => ⟨_, rfl⟩) fun _ => .bind .get fun _ => .whenM fun _ =>
          .changeToStateInit (by decide)
      rw [hw1]
      exact (hf _).same .epoch (by decide)
    rw [whenM_run]
    by_cases h5 : 5 ≤ m.size.toNat
    · rw [if_pos h5, if_pos h5, bind_run, setV_run, whenM_run]
      split <;> rfl
    · rw [if_neg h5, if_neg h5]
      exact h1
  · rw [if_neg h0, if_neg (by omega)]

theorem process_notime {c : Ctx} {rx : Option Msg} {w : W} (h : ∀ m, Takes c rx w m → ¬(m.cls = 0 ∧ m.typ = 1 ∧ c.hbSegment = true ∧ 5 ≤ m.size.toNat)) :
    (Core.process c rx w).2.v.epoch = (preProcess c rx w).2.v.epoch := by
  by_cases ha : w.v.st = .active
  · obtain ⟨w2, hh, hs⟩ := process_active (c := c) (rx := rx) ha
    have e1 := hs.same .epoch (by decide)
    refine Eq.trans e1 ?_
    cases hh with
    | handler m hr hm hn h' =>
      have e2 := notified_same c m (preProcess c rx w).2 .epoch
      rw [h']
      refine Eq.trans ?_ e2
      by_cases h1 : m.typ = 1
      · rw [handler1 h1, whenM_run]
        split <;> rename_i hseg
        · rw [heartbeat_time, if_neg]
          exact fun h5 => h m ⟨ha, hr, hn⟩ ⟨hm, h1, hseg, h5⟩
        · rfl
      · exact handler_same _ .epoch [1] (by decide) (by simpa using fun h => h1 (BitVec.eq_of_toNat_eq h))
    | other _ hs' => exact hs'.same .epoch (by decide)
  · exact (inactive_cycle ha).same .epoch (by decide)

theorem epochOf_toNat (m : Msg) : (Core.epochOf m).toNat =
    ((m.data[1].toNat * 256 + m.data[2].toNat) * 256 + m.data[3].toNat) * 256 + m.data[4].toNat := by
  unfold Core.epochOf
  generalize m.data[1] = a
  generalize m.data[2] = b
  generalize m.data[3] = d
  generalize m.data[4] = e
  have ha := a.isLt
  have hb := b.isLt
  have hd := d.isLt
  have he := e.isLt
  simp only [BitVec.toNat_or, BitVec.toNat_shiftLeft, BitVec.toNat_setWidth, Nat.shiftLeft_eq]
  rw [Nat.mod_eq_of_lt (a := a.toNat) (by omega), Nat.mod_eq_of_lt (a := b.toNat) (by omega), Nat.mod_eq_of_lt (a := d.toNat) (by omega),
    Nat.mod_eq_of_lt (a := e.toNat) (by omega), Nat.mod_eq_of_lt (by omega), Nat.mod_eq_of_lt (by omega), Nat.mod_eq_of_lt (by omega),
    nat_or_eq_add 24 (a.toNat * 2 ^ 24) (b.toNat * 2 ^ 16) (by omega) (by omega),
    nat_or_eq_add 16 _ (d.toNat * 2 ^ 8) (by omega) (by omega), nat_or_eq_add 8 _ e.toNat (by omega) (by omega)]
  omega

theorem payload_size {m : Msg} {i : Nat} {b : U8} (h : (payload m)[i]? = some b) : i < m.size.toNat ∧ m.data[i]? = some b := by
  unfold payload at h
  rw [List.getElem?_take] at h
  split at h
  · rename_i hi
    exact ⟨hi, by simpa using h⟩
  · cases h

theorem segTime_iff (m : Msg) (t : U32) : segTime m t ↔ m.cls = 0 ∧ m.typ = 1 ∧ 5 ≤ m.size.toNat ∧ Core.epochOf m = t := by
  constructor
  · rintro ⟨h0, h1, b1, b2, b3, b4, p1, p2, p3, p4, ht⟩
    have q1 := payload_size p1
    have q2 := payload_size p2
    have q3 := payload_size p3
    have q4 := payload_size p4
    refine ⟨h0, h1, q4.1, BitVec.eq_of_toNat_eq ?_⟩
    rw [epochOf_toNat, ht]
    have e1 : m.data[1] = b1 := by simpa using q1.2
    have e2 : m.data[2] = b2 := by simpa using q2.2
    have e3 : m.data[3] = b3 := by simpa using q3.2
    have e4 : m.data[4] = b4 := by simpa using q4.2
    rw [e1, e2, e3, e4]
  · rintro ⟨h0, h1, h5, rfl⟩
    exact ⟨h0, h1, _, _, _, _, payload_get' (by omega) (by decide), payload_get' (by omega) (by decide), payload_get' (by omega) (by decide),
      payload_get' (by omega) (by decide), epochOf_toNat m⟩

/-- C40: a cycle of an active node which receives a segment heartbeat with a time sets the time to it; every other cycle counts one second if
the timer of the time has expired, and changes nothing otherwise. -/
theorem C40_cycle (c : Ctx) (rx : Option Msg) (w : W) :
    (∀ m t, Takes c rx w m → c.hbSegment = true → segTime m t → (stepOp c (.process rx) w).2.v.epoch = t) ∧
    ((∀ m t, Takes c rx w m → c.hbSegment = true → ¬segTime m t) →
      (stepOp c (.process rx) w).2.v.epoch = w.v.epoch + if w.tm.ok .epoch = true ∧ w.tm.rem .epoch = 0 then 1 else 0) := by
  constructor
  · intro m t hT hseg ht
    obtain ⟨h0, h1, h5, rfl⟩ := (segTime_iff m t).mp ht
    obtain ⟨w1, t1, -, -, -, htail⟩ := takes_cycle hT h0
    have e1 := htail.steps.same .epoch (by decide)
    refine Eq.trans e1 ?_
    rw [handler1 h1, whenM_run, if_pos hseg, heartbeat_time, if_pos h5]
  · intro h
    refine Eq.trans (process_notime (c := c) (rx := rx) (w := w) ?_) (pre_time c rx w).1
    rintro m hT ⟨h0, h1, h2, h3⟩
    exact h m _ hT h2 ((segTime_iff m _).mpr ⟨h0, h1, h3, rfl⟩)

/-- C40: the application sets the time. -/
theorem C40_set (c : Ctx) (t : U32) (w : W) : (Core.getTimeSinceEpoch (stepOp c (.setTime t) w).2).1 = t := rfl

/-- C40: reading the time changes nothing, and delivers the time the other theorems are about. -/
theorem C40_get (w : W) : Core.getTimeSinceEpoch w = (w.v.epoch, w) := rfl

/-- Calls which neither set the time nor initialise the node again. -/
def keepsTime (op : Op) : Prop := noInit op ∧ ∀ t, op ≠ .setTime t

/-- The timer of the time after a cycle. -/
theorem process_rem (c : Ctx) (rx : Option Msg) (w : W) : (stepOp c (.process rx) w).2.tm.ok = w.tm.ok ∧
    (stepOp c (.process rx) w).2.tm.rem .epoch = if secondOver w then 1000 else w.tm.rem .epoch := by
  have h1 := (process_state c rx w).same .ok (by cases w.v.st <;> decide)
  have h2 := (process_state c rx w).same (.tm .epoch) (by cases w.v.st <;> decide)
  exact ⟨Eq.trans h1 (pre_same c rx w .ok (by decide)), Eq.trans h2 (pre_time c rx w).2⟩

/-- C40: as long as nobody sets the time it advances by at most one per second: `k` seconds are counted in a history which takes at least
`k` seconds, apart from the second which has already begun. -/
theorem C40_rate (c : Ctx) (ops : List Op) (w : W) (hk : ∀ op ∈ ops, keepsTime op)
    (hm : ∀ pre rx post m t, ops = pre ++ .process rx :: post → Takes c rx (runOps c pre w) m → c.hbSegment = true → ¬segTime m t) :
    ∃ k, (runOps c ops w).v.epoch = w.v.epoch + BitVec.ofNat 32 k ∧
      1000 * k + (w.tm.rem .epoch).toNat ≤ elapsed ops + ((runOps c ops w).tm.rem .epoch).toNat ∧
      ((w.tm.rem .epoch).toNat ≤ 1000 → ((runOps c ops w).tm.rem .epoch).toNat ≤ 1000) := by
  induction ops generalizing w with
  | nil => exact ⟨0, by simp [runOps], by simp [runOps, elapsed], by simp [runOps]⟩
  | cons op ops ih =>
    obtain ⟨k, h1, h2, h3⟩ := ih (stepOp c op w).2 (fun o ho => hk o (by simp [ho])) (fun pre rx post m t he hT =>
      hm (op :: pre) rx post m t (by rw [he]; rfl) hT)
    rw [runOps]
    by_cases hp : ∃ rx, op = .process rx
    · obtain ⟨rx, rfl⟩ := hp
      have he : elapsed (.process rx :: ops) = elapsed ops := rfl
      have ht := (C40_cycle c rx w).2 fun m t hT => hm [] rx ops m t rfl hT
      have hr := (process_rem c rx w).2
      rw [ht] at h1
      rw [hr] at h2 h3
      rw [he]
      by_cases hs : secondOver w
      · rw [if_pos (show w.tm.ok .epoch = true ∧ w.tm.rem .epoch = 0 from hs)] at h1
        rw [if_pos hs] at h2 h3
        have e1 : (1000 : U16).toNat = 1000 := rfl
        have e0 : (w.tm.rem .epoch).toNat = 0 := by rw [hs.2]; rfl
        refine ⟨k + 1, ?_, by omega, fun _ => h3 (by omega)⟩
        rw [h1, BitVec.add_assoc, Nat.add_comm k 1, BitVec.ofNat_add]
        rfl
      · rw [if_neg (show ¬(w.tm.ok .epoch = true ∧ w.tm.rem .epoch = 0) from hs), show w.v.epoch + 0 = w.v.epoch from BitVec.add_zero _] at h1
        rw [if_neg hs] at h2 h3
        exact ⟨k, h1, h2, h3⟩
    · have hep : (stepOp c op w).2.v.epoch = w.v.epoch := op_same c op (fun rx h => hp ⟨rx, h⟩) w .epoch
        (by
          have h := hk op (by simp)
          cases op <;> first | exact absurd ⟨_, rfl⟩ hp | exact absurd rfl (h.1 _) | exact absurd rfl (h.2 _) | rfl)
      rw [hep] at h1
      by_cases ht : ∃ ms, op = .tick ms
      · obtain ⟨ms, rfl⟩ := ht
        have hr := tick_rem c ms w .epoch
        have he : elapsed (.tick ms :: ops) = ms + elapsed ops := rfl
        rw [hr] at h2 h3
        rw [he]
        exact ⟨k, h1, by omega, fun h => h3 (by omega)⟩
      · have hr : (stepOp c op w).2.tm.rem .epoch = w.tm.rem .epoch := op_same c op (fun rx h => hp ⟨rx, h⟩) w (.tm .epoch)
          (by
            have h := hk op (by simp)
            cases op <;> first | exact absurd ⟨_, rfl⟩ hp | exact absurd ⟨_, rfl⟩ ht | exact absurd rfl (h.1 _) | rfl)
        have he : elapsed (op :: ops) = elapsed ops := by
          cases op <;> first | exact absurd ⟨_, rfl⟩ ht | rfl
        rw [hr] at h2 h3
        rw [he]
        exact ⟨k, h1, h2, h3⟩

/-- C40, from power up: the time is at most the number of seconds since then, as long as nobody sets it. -/
theorem C40_from_start (c : Ctx) (ok : Tmr → Bool) (hok : ok .epoch = true) (ps : Nat → U8) (ops : List Op) (hk : ∀ op ∈ ops, keepsTime op)
    (hm : ∀ pre rx post m t, ops = pre ++ .process rx :: post → Takes c rx (node c ok ps pre) m → c.hbSegment = true → ¬segTime m t) :
    1000 * (Core.getTimeSinceEpoch (node c ok ps ops)).1.toNat ≤ elapsed ops := by
  show 1000 * (node c ok ps ops).v.epoch.toNat ≤ elapsed ops
  obtain ⟨k, h1, h2, h3⟩ := C40_rate c ops (stepOp c (.init ok) (powerUp ps)).2 hk hm
  have e : runOps c ops (stepOp c (.init ok) (powerUp ps)).2 = node c ok ps ops := rfl
  have hep : (stepOp c (.init ok) (powerUp ps)).2.v.epoch = 0 :=
    op_same c (.init ok) (fun _ h => by cases h) (powerUp ps) .epoch rfl
  have hr : (stepOp c (.init ok) (powerUp ps)).2.tm.rem .epoch = 1000 := by
    obtain ⟨w1, i1, i2⟩ := init_steps c ok (powerUp ps)
    have := i2.same (.tm .epoch) (by decide)
    have e : w1.tm.rem .epoch = 1000 := by rw [i1.tm]; simp [hok]
    exact this.trans e
  rw [e, hep] at h1
  rw [e, hr] at h2 h3
  have h3 := h3 (by decide)
  rw [h1]
  have : (1000 : U16).toNat = 1000 := rfl
  have hb : ((0 : U32) + BitVec.ofNat 32 k).toNat ≤ k := by
    rw [show (0 : U32) + BitVec.ofNat 32 k = BitVec.ofNat 32 k from BitVec.zero_add _, BitVec.toNat_ofNat]; exact Nat.mod_le _ _
  omega

/-- A node counts three seconds, takes the time of a segment heartbeat, and goes on from there. -/
example : (node Ex.ctx allOk (mem 0x60) (rounds [(0, none), (1000, none), (2500, none), (1000, none)])).v.epoch = 3 ∧
    (node Ex.ctx allOk (mem 0x60) (rounds [(0, none), (1000, none), (10, some (Ex.msg 0 1 0 [0, 1, 2, 3, 4])), (990, none)])).v.epoch = 0x01020305 ∧
    segTime (Ex.msg 0 1 0 [0, 1, 2, 3, 4]) 0x01020304 := by
  refine ⟨by decide +kernel, by decide +kernel, rfl, rfl, 1, 2, 3, 4, rfl, rfl, rfl, rfl, rfl⟩

/-! ### C42: change of the segment -/

/-- A node which got its nickname from the segment master sees two changes of the segment, long after that, and starts no discovery. -/
theorem C42_violated :
    let ops : List Op := [.process none, .process none, .process (some (Ex.msg 0 3 0 [])), .process (some (Ex.msg 0 6 0 [0xFF, 6])),
      .process (some (Ex.msg 0 1 0 [17])), .tick 10000, .process (some (Ex.msg 0 1 0 [18])), .tick 10000, .process (some (Ex.msg 0 1 0 [19]))]
    let w := node Ex.ctx allOk (fun a => if a = 1 then 0xFF else mem 0x60 a) ops
    w.v.st = .active ∧ w.v.nick = 6 ∧ w.ps (Ps.addrSegCrc Ex.ctx) = 19 := by
  decide +kernel

/-- The comparison of the CRC. -/
def crcPart (c : Ctx) (m : Msg) : M Unit := do
  let crc ← Ps.readSegCrc c
  whenM (crc ≠ m.data[0]) (do
    Ps.writeSegCrc c m.data[0]
    let w ← get
    whenM (w.v.probe ≠ Core.MASTER) (Core.changeToStateInit c true))

/-- The time. -/
def timePart (c : Ctx) (m : Msg) : M Unit := whenM (5 ≤ m.size.toNat) (do
  setV fun v => { v with epoch := Core.epochOf m }
  whenM c.segTimeCallout (emit (.timeUpdate (Core.epochOf m))))

theorem heartbeat_parts {c : Ctx} {m : Msg} {w : W} (h : 0 < m.size.toNat) :
    (Core.handleHeartbeat c m w).2 = (timePart c m (crcPart c m w).2).2 := by
  unfold Core.handleHeartbeat
  rw [whenM_run, if_pos h]
  rfl

theorem timePart_same (c : Ctx) (m : Msg) (w : W) : (timePart c m w).2.ps = w.ps ∧ (timePart c m w).2.v.st = w.v.st ∧
    (timePart c m w).2.v.nick = w.v.nick ∧ (timePart c m w).2.v.ist = w.v.ist := by
  unfold timePart
  rw [whenM_run]
  split
  · rw [bind_run, setV_run, whenM_run]
    split <;> exact ⟨rfl, rfl, rfl, rfl⟩
  · exact ⟨rfl, rfl, rfl, rfl⟩

theorem segBeat_iff (m : Msg) (crc : U8) : segBeat m crc ↔ m.cls = 0 ∧ m.typ = 1 ∧ 0 < m.size.toNat ∧ m.data[0] = crc := by
  constructor
  · rintro ⟨h0, h1, p⟩
    have q := payload_size p
    exact ⟨h0, h1, q.1, by simpa using q.2⟩
  · rintro ⟨h0, h1, h2, rfl⟩
    exact ⟨h0, h1, payload_get' h2 (by decide)⟩

/-- C42: a segment heartbeat with the stored CRC changes neither the memory nor the state of the node, its nickname, the discovery, the
GUID drop, the reset or the selected page. -/
theorem C42_equal {c : Ctx} {rx : Option Msg} {w : W} {m : Msg} {crc : U8} (hT : Takes c rx w m) (hb : segBeat m crc)
    (he : w.ps (Ps.addrSegCrc c) = crc) :
    ∀ k ∈ [Comp.ps, .st, .nick, .init, .guid, .sec, .reset, .page, .hb], k.same w (stepOp c (.process rx) w).2 := by
  intro k hk
  obtain ⟨h0, h1, h2, h3⟩ := (segBeat_iff m crc).mp hb
  obtain ⟨w1, t1, -, -, hs, htail⟩ := takes_cycle hT h0
  have hk1 : [Comp.epoch, .tm .epoch, .lb, .rx, .lg].contains k = false := by
    revert k; decide
  have hk2 : afterActs.all (fun a => !a.touches k) = true := by
    revert k; decide
  refine Comp.same_trans (hs k hk1) (Comp.same_trans ?_ (htail.steps.same k hk2))
  have hps : w1.ps = w.ps := hs .ps (by decide)
  rw [handler1 h1]
  have hcrc : (Ps.readSegCrc c w1) = (m.data[0], w1) := by
    unfold Ps.readSegCrc
    rw [psRead8_run, hps, he, h3]
  rw [whenM_run]
  split
  · rw [heartbeat_parts h2]
    have hcp : (crcPart c m w1).2 = w1 := by
      unfold crcPart
      rw [bind_run, hcrc]
      dsimp only
      rw [whenM_run, if_neg (by simp)]
    rw [hcp]
    unfold timePart
    rw [whenM_run]
    split
    · rw [bind_run, setV_run, whenM_run]
      split <;> (revert k; simp [Comp.same])
    · exact Comp.same_refl _ _
  · exact Comp.same_refl _ _

/-- C42, partial: a segment heartbeat with another CRC than the stored one is stored, and starts the discovery of a nickname with the segment
master, unless the last discovery began with (and was ended by) the segment master, which is probe number 0; then the node remains active.
Missing: this exception holds not only just after the initialisation but for ever, see `C42_violated`. -/
theorem C42_changed_partial {c : Ctx} {rx : Option Msg} {w : W} {m : Msg} {crc : U8} (hT : Takes c rx w m) (hseg : c.hbSegment = true)
    (hb : segBeat m crc) (he : w.ps (Ps.addrSegCrc c) ≠ crc) :
    (stepOp c (.process rx) w).2.ps (Ps.addrSegCrc c) = crc ∧
    (w.v.probe ≠ 0 → (stepOp c (.process rx) w).2.v.st = .init ∧ (stepOp c (.process rx) w).2.v.nick = 0xFF ∧
      (stepOp c (.process rx) w).2.v.ist = .probeMaster ∧ (stepOp c (.process rx) w).2.ps (Ps.addrNickname c) = 0xFF) ∧
    (w.v.probe = 0 → (stepOp c (.process rx) w).2.v.st = .active ∧ (stepOp c (.process rx) w).2.v.nick = w.v.nick) := by
  obtain ⟨h0, h1, h2, h3⟩ := (segBeat_iff m crc).mp hb
  obtain ⟨w1, t1, -, -, hs, htail⟩ := takes_cycle hT h0
  have f1 := htail.steps.same .ps (by decide)
  have f2 := htail.steps.same .st (by decide)
  have f3 := htail.steps.same .nick (by decide)
  have f4 := htail.steps.same .init (by decide)
  have g1 := hs .ps (by decide)
  have g2 := hs .st (by decide)
  have g3 := hs .nick (by decide)
  have g4 := hs .init (by decide)
  simp only [Comp.same] at f1 f2 f3 f4 g1 g2 g3 g4
  have e : (stepOp c (.process rx) w).2 = (Core.process c rx w).2 := rfl
  rw [e, f1, f2, f3, f4.1, ← g4.2, ← g3]
  have hst : w1.v.st = .active := g2.trans hT.1
  rw [← g1] at he
  rw [handler1 h1, whenM_run, if_pos hseg, heartbeat_parts h2]
  obtain ⟨x1, x2, x3, x4⟩ := timePart_same c m (crcPart c m w1).2
  rw [x1, x2, x3, x4]
  obtain ⟨w2, hw2⟩ : ∃ w2 : W, w2 = { w1 with ps := fun x => if x = Ps.addrSegCrc c then m.data[0] else w1.ps x, out := w1.out ++ [.psW (Ps.addrSegCrc c) m.data[0]] } := ⟨_, rfl⟩
  have hcp : (crcPart c m w1).2 = (whenM (w2.v.probe ≠ Core.MASTER) (Core.changeToStateInit c true) w2).2 := by
    unfold crcPart Ps.readSegCrc Ps.writeSegCrc
    rw [bind_run, psRead8_run]
    dsimp only
    rw [whenM_run, if_pos (by rw [h3]; exact he), bind_run, psWrite8_run, bind_run, get_run, hw2]
  rw [hcp]
  have p2 : w2.v = w1.v := by rw [hw2]
  have c2 : w2.ps (Ps.addrSegCrc c) = crc := by rw [hw2]; simp [h3]
  have hne : Ps.addrSegCrc c ≠ Ps.addrNickname c := by unfold Ps.addrSegCrc Ps.sizeNickname; omega
  by_cases hp : w1.v.probe = 0
  · rw [whenM_run, if_neg (by rw [p2, hp]; simp [Core.MASTER])]
    exact ⟨c2, fun h => absurd hp h, fun _ => ⟨by rw [p2, hst], by rw [p2]⟩⟩
  · rw [whenM_run, if_pos (by rw [p2]; exact hp)]
    have hs2 : w2.v.st ≠ .init := by rw [p2, hst]; decide
    have hi := changeInit_run c true w2 hs2
    have hn := Nickname.changeInit_nick c true w2 hs2
    have hps : (Core.changeToStateInit c true w2).2.ps = fun x => if x = Ps.addrNickname c then 0xFF else w2.ps x := by
      unfold Core.changeToStateInit
      simp only [bind_run, get_run, whenM_run, if_pos hs2, emit_run, setV_run, writeNick_run]
      rfl
    refine ⟨?_, fun _ => ⟨hi.1, hn, hi.2.1, ?_⟩, fun h => absurd h hp⟩
    · rw [hps]; simp only; rw [if_neg hne]; exact c2
    · rw [hps]; simp

/-- The hypotheses can be met: a node which was not initialised by a segment master. -/
example : let w := node Ex.ctx allOk (mem 0x60) [.process none]
    w.v.st = .active ∧ w.v.probe ≠ 0 ∧ (readMessage Ex.ctx (some (Ex.msg 0 1 0 [17])) w).1 = some (Ex.msg 0 1 0 [17]) ∧
    segBeat (Ex.msg 0 1 0 [17]) 17 ∧ w.ps (Ps.addrSegCrc Ex.ctx) = 0 ∧
    (stepOp Ex.ctx (.process (some (Ex.msg 0 1 0 [17]))) w).2.v.st = .init := by
  unfold segBeat
  decide +kernel

end Vscp.Time
