/-
Property theorems: exactly what a control event does to the logger in later cycles (C57), and what an increment or decrement event
does to the alarm status (C41).
-/
import Verif.Props.Logger
import Verif.Props.Registers

namespace Vscp.LogProps
open M Vscp.Spec Vscp.Spec.Log Transport Vscp.Safety Restore

/-- The received event stays the same as long as no cycle is run and the node is not initialised again. -/
theorem rx_kept (c : Ctx) : ∀ (ops : List Op) (w : W), (∀ op ∈ ops, (∀ rx, op ≠ .process rx) ∧ ∀ ok, op ≠ .init ok) →
    (runOps c ops w).v.rx = w.v.rx := by
  intro ops
  induction ops with
  | nil => intro w _; rfl
  | cons op ops ih =>
    intro w h
    obtain ⟨hp, hi⟩ := h op (by simp)
    have e2 : (stepOp c op w).2.v.rx = w.v.rx := by
      refine op_same c op hp w .rx ?_
      cases op <;> first | exact absurd rfl (hi _) | exact absurd rfl (hp _) | simp [opActs, Act.touches]
    exact (ih _ fun op h' => h op (by simp [h'])).trans e2

/-- C57, exactly: after a cycle which received an event and any calls of the application, the next cycle which receives nothing
applies that event to the settings of the logger once more, with the log id which is stored then. -/
theorem C57_again_exact (c : Ctx) (hl : c.logger = true) (rx rx' : Option Msg) (m : Msg) (w : W) (hr : (readMessage c rx w).1 = some m)
    (ops : List Op) (h : ∀ op ∈ ops, (∀ rx, op ≠ .process rx) ∧ ∀ ok, op ≠ .init ok) :
    let w1 := runOps c ops (stepOp c (.process rx) w).2
    (readMessage c rx' w1).1 = none → (stepOp c (.process rx') w1).2.lg = control (w1.ps (Ps.addrLogId c)) m w1.lg := by
  intro w1 hr'
  have h0 : w1.v.rx = m := by
    rw [rx_kept c ops _ h]
    show (Core.process c rx w).2.v.rx = m
    rw [(process_log c rx w).1, (pre_log c rx w).1, hr]
    rfl
  show (Core.process c rx' w1).2.lg = _
  rw [(process_log c rx' w1).2, (pre_log c rx' w1).2, hr', if_pos hl, Option.getD_none, h0]

/-- C57 is violated in general: after a stop event for the node, whatever the application does, the logger is off behind the next
cycle without an event; likewise the level is the one of the last event which sets it. -/
theorem C57_again_violated (c : Ctx) (hl : c.logger = true) (rx rx' : Option Msg) (m : Msg) (w : W) (hr : (readMessage c rx w).1 = some m)
    (ops : List Op) (h : ∀ op ∈ ops, (∀ rx, op ≠ .process rx) ∧ ∀ ok, op ≠ .init ok) (hm : m.cls = 509 ∧ m.size = 1) :
    let w1 := runOps c ops (stepOp c (.process rx) w).2
    (readMessage c rx' w1).1 = none →
    (m.typ = 3 → m.data[0] = w1.ps (Ps.addrLogId c) → (stepOp c (.process rx') w1).2.lg.on = false) ∧
    (m.typ = 4 → (stepOp c (.process rx') w1).2.lg.level = m.data[0]) := by
  intro w1 hr'
  rw [C57_again_exact c hl rx rx' m w hr ops h hr']
  unfold Log.control
  rw [if_pos hm]
  refine ⟨fun h2 h4 => ?_, fun h2 => ?_⟩
  · rw [if_neg (by rw [h2]; exact fun e => absurd e.1 (by decide)), if_pos ⟨h2, h4⟩]
  · rw [if_neg (by rw [h2]; exact fun e => absurd e.1 (by decide)), if_neg (by rw [h2]; exact fun e => absurd e.1 (by decide)), if_pos h2]

-- A stop event, and a level: received by a node with the logger on, then both are set by the application.
example : (readMessage Ex.ctx (some (ctl 3 (w0.ps (Ps.addrLogId Ex.ctx)))) w0).1 = some (ctl 3 (w0.ps (Ps.addrLogId Ex.ctx))) ∧
    (ctl 3 0).cls = 509 ∧ (ctl 3 0).size = 1 ∧ Ex.ctx.logger = true ∧
    (runOps Ex.ctx [.loggerEnable true] (stepOp Ex.ctx (.process (some (ctl 3 (w0.ps (Ps.addrLogId Ex.ctx))))) w0).2).lg.on = true := by
  decide +kernel

end Vscp.LogProps

namespace Vscp.Registers
open M Spec

/-- C41, exactly for increment and decrement events: for the alarm status they are not answered, and clear it. -/
theorem C41_step_violated (c : Ctx) (w : W) (m : Msg) (hm : Request m 29 [w.v.nick, 0x80] ∨ Request m 30 [w.v.nick, 0x80]) :
    handle c m w = { w with v := { w.v with alarm := 0 } } := by
  have hd : ∃ d : U8, Request m 29 [w.v.nick, 0x80] ∧ d = 1 ∨ Request m 30 [w.v.nick, 0x80] ∧ d = -1 := by
    rcases hm with h | h
    · exact ⟨1, .inl ⟨h, rfl⟩⟩
    · exact ⟨-1, .inr ⟨h, rfl⟩⟩
  obtain ⟨d, hd⟩ := hd
  have hr := not_appServed (c := c) (page := 0) (addr := 0x80) (by simp [appServed]) w
  rw [alarmRead, if_pos ⟨rfl, rfl⟩] at hr
  have h := handle_inc c w m 0x80 d hd
  simp only [] at h
  rw [h, writeRegister_rejected (by unfold accepted; rfl) _, if_neg (fun e => (by cases e)), hr]

-- An increment event for the alarm status of a node with an alarm: it is cleared, and no event is transmitted.
example : let w := runOps Ex.ctx [.init (fun _ => true), .setAlarm 5] (powerUp fun _ => 0xFF)
    w.v.alarm = 5 ∧ (handle Ex.ctx (Ex.msg 0 29 0 [w.v.nick, 0x80]) w).v.alarm = 0 ∧
    (handle Ex.ctx (Ex.msg 0 29 0 [w.v.nick, 0x80]) w).out = w.out ∧
    Request (Ex.msg 0 29 0 [w.v.nick, 0x80]) 29 [w.v.nick, 0x80] := by
  refine ⟨by decide +kernel, by decide +kernel, by decide +kernel, rfl, rfl, rfl, rfl⟩

end Vscp.Registers
