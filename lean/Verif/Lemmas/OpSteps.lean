/-
The steps of the interface functions other than `process`, and cycles in the states without events.
-/
import Verif.Lemmas.Cycle

namespace Vscp
open M Spec Transport

/-- The steps of a call other than `process`. -/
def opActs : Op → List Act
  | .init _ => [.tmInit, .lbInit, .dmInit, .initVars, .tm .epoch, .restore, .st .error, .errorEntered]
  | .process _ => []
  | .tick _ => [.tick]
  | .startNodeSegmentInit => [.st .init, .ist, .nick]
  | .restore => [.restore]
  | .setAlarm _ => [.alarmOr]
  | .setTime _ => [.epochSet]
  | .enableHeartbeat _ => [.hb]
  | .sendEvent m => [.userTx m]
  | .getTransmitErrors => [.errClr]
  | .loggerEnable _ | .loggerLevel _ => [.lg]
  | .log .. | .logUInt32 .. => [.tx]

theorem op_steps (c : Ctx) (op : Op) (h : ∀ rx, op ≠ .process rx) (w : W) : Steps c True (opActs op) w (stepOp c op w).2 := by
  cases op with
  | init ok => exact Foot.coreInit ok w
  | process rx => exact absurd rfl (h rx)
  | tick ms => exact .one (a := .tick) (by simp [opActs]) ⟨_, rfl⟩
  | startNodeSegmentInit => exact Foot.startNodeSegmentInit (by simp [opActs]) w
  | restore => exact .one (a := .restore) (by simp [opActs]) rfl
  | setAlarm v => exact .one (a := .alarmOr) (by simp [opActs]) ⟨_, rfl⟩
  | setTime t => exact .one (a := .epochSet) (by simp [opActs]) ⟨_, rfl⟩
  | enableHeartbeat b => exact .one (a := .hb) (by simp [opActs]) rfl
  | sendEvent m => exact .one (a := .userTx m) (by simp [opActs]) rfl
  | getTransmitErrors => exact .one (a := .errClr) (by simp [opActs]) rfl
  | loggerEnable b => exact .one (a := .lg) (by simp [opActs]) ⟨_, rfl⟩
  | loggerLevel l => exact .one (a := .lg) (by simp [opActs]) ⟨_, rfl⟩
  | log id level msg => exact Foot.log w
  | logUInt32 id level x => exact Foot.log w

/-- A component no step of the call touches. -/
theorem op_same (c : Ctx) (op : Op) (h : ∀ rx, op ≠ .process rx) (w : W) (k : Comp)
    (hk : (opActs op).all (fun a => !a.touches k) = true) : k.same w (stepOp c op w).2 := (op_steps c op h w).same k hk

/-- Calm calls other than `process` make no call into other code. -/
theorem calm_out (c : Ctx) (op : Op) (h : calm op) (hp : ∀ rx, op ≠ .process rx) (w : W) : (stepOp c op w).2.out = w.out := by
  cases op <;> first | exact h.elim | rfl | exact absurd rfl (hp _)

theorem process_idle {c : Ctx} {rx : Option Msg} {w : W} (h : w.v.st = .idle ∨ w.v.st = .error) :
    (Core.process c rx w).2 = (preProcess c rx w).2 := by
  have hst := pre_same c rx w .st (by decide)
  simp only [Comp.same] at hst
  rw [process_split]
  generalize (preProcess c rx w).2 = w1 at *
  unfold Core.dispatch
  rw [bind_run, get_run]
  dsimp only
  rcases h with h | h <;> simp only [hst, h] <;> rfl

theorem process_reset {c : Ctx} {rx : Option Msg} {w : W} (h : w.v.st = .reset) :
    (Core.process c rx w).2 = (Core.stateReset (preProcess c rx w).2).2 := by
  have hst := pre_same c rx w .st (by decide)
  simp only [Comp.same] at hst
  rw [process_split]
  generalize (preProcess c rx w).2 = w1 at *
  unfold Core.dispatch
  rw [bind_run, get_run]
  dsimp only
  simp only [hst, h]
  rfl

theorem tick_rem (c : Ctx) (ms : Nat) (w : W) (t : Tmr) :
    ((stepOp c (.tick ms) w).2.tm.rem t).toNat = (w.tm.rem t).toNat - ms := by
  show (BitVec.ofNat 16 ((w.tm.rem t).toNat - ms)).toNat = _
  rw [BitVec.toNat_ofNat]
  have := (w.tm.rem t).isLt
  omega

/-- The steps of the state machine in a state. -/
def stateActs : St → List Act
  | .startup => [.guid, .tm .guidDrop, .st .init, .ist, .nick, .st .reset, .sec, .tm .main, .st .active, .tx, .tm .heartbeat]
  | .init => [.tx, .ist, .tm .main, .st .preActive, .st .idle, .idleEntered, .nick, .st .active, .tm .heartbeat]
  | .preActive => [.tx, .ist, .tm .main, .st .init, .nick, .st .active, .tm .heartbeat]
  | .active => .customHb :: .tm .heartbeat :: eventActs
  | .reset => [.sec, .resetReq, .tm .main]
  | .idle | .error => []

theorem process_state (c : Ctx) (rx : Option Msg) (w : W) :
    Steps c True (stateActs w.v.st) (preProcess c rx w).2 (Core.process c rx w).2 := by
  have hst := pre_same c rx w .st (by decide)
  simp only [Comp.same] at hst
  rw [process_split, ← hst]
  generalize (preProcess c rx w).2 = w1 at *
  unfold Core.dispatch
  rw [bind_run, get_run]
  dsimp only
  cases hs : w1.v.st with
  | startup => exact Foot.bind (.mono .stateStartup (by decide)) (fun _ => .pure _) _
  | init => exact (Foot.stateInit _ hs).mono (by decide)
  | preActive => exact Foot.bind (.mono .statePreActive (by decide)) (fun _ => .pure _) _
  | active => exact Foot.mono (.stateActive (fun _ _ _ => trivial) (fun _ _ => trivial) (fun _ _ => trivial)) (by decide) _
  | reset => exact Foot.bind (.mono .stateReset (by decide)) (fun _ => .pure _) _
  | idle => exact .refl _
  | error => exact .refl _

/-- The stored start-up control bits are valid. -/
def psValid (c : Cfg) (ps : Nat → U8) : Bool := decide ((ps (Ps.addrFlags c) >>> 6) &&& 3 = 1 ∨ (ps (Ps.addrFlags c) >>> 6) &&& 3 = 2)

/-- All timers could be created. -/
def timersGood (c : Cfg) (ok : Tmr → Bool) : Bool := ok .main && ok .guidDrop && ok .reg162 && ok .epoch && (!c.hbNode || ok .heartbeat)

/-- `init` before the check of the persistent memory. -/
structure Inited (c : Ctx) (ok : Tmr → Bool) (w w1 : W) : Prop where
  v : ∃ r, w1.v = { w.v with nick := w.ps (Ps.addrNickname c), st := .startup, ist := .probe, resetReq := false, rx := r }
  ps : w1.ps = w.ps
  tm : w1.tm = { rem := fun t => if t = .epoch ∧ ok .epoch = true then 1000 else 0, ok := ok }
  lg : w1.lg = w.lg
  out : w1.out = w.out ++ [.lamp .blinkSlow]

theorem init_run (c : Ctx) (ok : Tmr → Bool) (w : W) : ∃ w1, Inited c ok w w1 ∧ (Core.init c ok w).2 =
    (whenM (timersGood c ok = false) (Core.changeToStateError c)
      (whenM (psValid c w1.ps = false) (Core.restoreFactoryDefaultSettings c) w1).2).2 := by
  obtain ⟨tp, ub, ht⟩ := tpInit_frame c { w with tm := { rem := fun _ => 0, ok := ok } }
  have hdm : ∃ dm, (whenM (c.dm = true) (Dm.init c) (Transport.init c { w with tm := { rem := fun _ => 0, ok := ok } }).2).2 =
      { w with tm := { rem := fun _ => 0, ok := ok }, tp := tp, ub := ub, dm := dm } := by
    rw [ht, whenM_run]
    unfold Dm.init
    split
    · simp only [ite_run]
      split
      · exact ⟨_, rfl⟩
      · exact ⟨_, rfl⟩
    · exact ⟨_, rfl⟩
  obtain ⟨dm, hdm⟩ := hdm
  obtain ⟨w0, hw0⟩ : ∃ w0 : W, w0 = { w with tm := { rem := fun _ => 0, ok := ok }, tp := tp, ub := ub, dm := dm } := ⟨_, rfl⟩
  rw [← hw0] at hdm
  obtain ⟨w1, hw1⟩ : ∃ w1 : W, w1 = (timerStart .epoch 1000 { w0 with
    v := { w0.v with nick := w0.ps (Ps.addrNickname c), st := .startup, ist := .probe, resetReq := false, rx := { w0.v.rx with
      cls := Transport.CLASS_PROTOCOL, typ := 0, prio := 7, oAddr := Core.NOT_INIT, hard := false } }
    out := w0.out ++ [.lamp .blinkSlow] }).2 := ⟨_, rfl⟩
  have hI : Inited c ok w w1 := by
    rw [hw1, hw0, timerStart_run]
    by_cases h : ok .epoch = true
    · refine ⟨⟨{ w.v.rx with cls := Transport.CLASS_PROTOCOL, typ := 0, prio := 7, oAddr := Core.NOT_INIT, hard := false }, ?_⟩, ?_, ?_, ?_, ?_⟩ <;>
        simp [h]
    · refine ⟨⟨{ w.v.rx with cls := Transport.CLASS_PROTOCOL, typ := 0, prio := 7, oAddr := Core.NOT_INIT, hard := false }, ?_⟩, ?_, ?_, ?_, ?_⟩ <;>
        simp [h]
  refine ⟨w1, hI, ?_⟩
  unfold Core.init
  rw [bind_run, bind_run, modify_run]
  dsimp only
  rw [bind_run, hdm, bind_run, bind_run, bind_run, bind_run]
  have e : (timerStart .epoch 1000 (emit (.lamp .blinkSlow) (setV (fun v => { v with
      nick := (Ps.readNickname c w0).1
      st := .startup
      ist := .probe
      resetReq := false
      rx := { v.rx with cls := Transport.CLASS_PROTOCOL, typ := 0, prio := 7, oAddr := Core.NOT_INIT, hard := false } })
      (Ps.readNickname c w0).2).2).2).2 = w1 := by rw [hw1]; rfl
  rw [e]
  have hv : Core.checkPersistentMemory c w1 = (psValid c w1.ps, w1) := by
    simp only [Core.checkPersistentMemory, Core.getStartUpControl, Ps.readFlags, bind_run, psRead8_run, pure_run, psValid]
    congr 1
    generalize (w1.ps (Ps.addrFlags c) >>> 6) &&& 0x03 = x
    by_cases h1 : x = 1
    · subst h1; rfl
    · by_cases h2 : x = 2
      · subst h2; rfl
      · rw [if_pos ⟨fun h => h1 h.symm, fun h => h2 h.symm⟩]
        exact (decide_eq_false (fun h => h.elim h1 h2)).symm
  rw [bind_run, hv]
  rfl

/-- `init`, then the steps of the restore and of the error state. -/
theorem init_steps (c : Ctx) (ok : Tmr → Bool) (w : W) : ∃ w1, Inited c ok w w1 ∧
    Steps c True [.restore, .st .error, .errorEntered] w1 (Core.init c ok w).2 := by
  obtain ⟨w1, h1, h2⟩ := init_run c ok w
  refine ⟨w1, h1, ?_⟩
  rw [h2]
  exact Steps.trans (Foot.whenM (fun _ => .restore (by decide)) w1) (Foot.whenM (fun _ => .changeToStateError (by decide)) _)

end Vscp
