/-
Cycles of a node in the initialisation and pre-active states.
-/
import Verif.Lemmas.OpSteps
import Verif.Spec.Discovery

namespace Vscp
open M Spec Transport

theorem changeInit_run (c : Ctx) (b : Bool) (w : W) (h : w.v.st ≠ .init) :
    (Core.changeToStateInit c b w).2.v.st = .init ∧ (Core.changeToStateInit c b w).2.v.ist = (if b = false then .probe else .probeMaster) ∧
    (Core.changeToStateInit c b w).2.v.probe = (if b = false then c.startProbe else Core.MASTER) ∧
    (Core.changeToStateInit c b w).2.tm = w.tm := by
  unfold Core.changeToStateInit
  simp only [bind_run, get_run, whenM_run, if_pos h, emit_run, setV_run, writeNick_run]
  exact ⟨trivial, trivial, trivial, trivial⟩

theorem changeInit_same (c : Ctx) (b : Bool) (w : W) (h : w.v.st = .init) : (Core.changeToStateInit c b w).2 = w := by
  unfold Core.changeToStateInit
  simp only [bind_run, get_run, whenM_run, h, ne_eq, not_true_eq_false, if_false]

/-- `process` is the state function after the read of the event. -/
theorem process_init {c : Ctx} {rx : Option Msg} {w : W} (h : w.v.st = .init) :
    (Core.process c rx w).2 = (Core.stateInit c (readMessage c rx w).1 (preProcess c rx w).2).2 := by
  have hst := pre_same c rx w .st (by decide)
  simp only [Comp.same] at hst
  rw [process_split, preProcess_rx]
  generalize (preProcess c rx w).2 = w1 at *
  unfold Core.dispatch
  rw [bind_run, get_run]
  dsimp only
  simp only [hst, h]
  rfl

theorem process_preActive {c : Ctx} {rx : Option Msg} {w : W} (h : w.v.st = .preActive) :
    (Core.process c rx w).2 = (Core.statePreActive c (readMessage c rx w).1 (preProcess c rx w).2).2 := by
  have hst := pre_same c rx w .st (by decide)
  simp only [Comp.same] at hst
  rw [process_split, preProcess_rx]
  generalize (preProcess c rx w).2 = w1 at *
  unfold Core.dispatch
  rw [bind_run, get_run]
  dsimp only
  simp only [hst, h]
  rfl

theorem process_startup {c : Ctx} {rx : Option Msg} {w : W} (h : w.v.st = .startup) :
    (Core.process c rx w).2 = (Core.stateStartup c (readMessage c rx w).1 (preProcess c rx w).2).2 := by
  have hst := pre_same c rx w .st (by decide)
  simp only [Comp.same] at hst
  rw [process_split, preProcess_rx]
  generalize (preProcess c rx w).2 = w1 at *
  unfold Core.dispatch
  rw [bind_run, get_run]
  dsimp only
  simp only [hst, h]
  rfl

/-- What matters of a state for the discovery. -/
structure Disc where
  st : St
  ist : ISt
  probe : U8
  rem : U16
  ok : Bool

def disc (w : W) : Disc := ⟨w.v.st, w.v.ist, w.v.probe, w.tm.rem .main, w.tm.ok .main⟩

theorem disc_pre (c : Ctx) (rx : Option Msg) (w : W) : disc (preProcess c rx w).2 = disc w := by
  have h1 := pre_same c rx w .st (by decide)
  have h2 := pre_same c rx w .init (by decide)
  have h3 := pre_same c rx w (.tm .main) (by decide)
  have h4 := pre_same c rx w .ok (by decide)
  simp only [Comp.same] at h1 h2 h3 h4
  unfold disc
  rw [h1, h2.1, h2.2, h3, h4]

/-- The main timer is running. -/
def Disc.running (d : Disc) : Bool := d.ok && d.rem != 0

theorem disc_eta (w : W) : (disc w).st = w.v.st ∧ (disc w).ist = w.v.ist ∧ (disc w).probe = w.v.probe ∧ (disc w).rem = w.tm.rem .main ∧
    (disc w).ok = w.tm.ok .main := ⟨rfl, rfl, rfl, rfl, rfl⟩

theorem probesOf_append (t t' : List Out) : probesOf (t ++ t') = probesOf t ++ probesOf t' := List.filterMap_append ..

/-- Probing of the segment master. -/
theorem cycle_probeMaster (c : Ctx) (rx : Option Msg) (w : W) (h : w.v.st = .init) (hi : w.v.ist = .probeMaster) :
    (c.txOk w.out.length = false ∧ probesOf ((Core.process c rx w).2.out.drop w.out.length) = [] ∧ disc (Core.process c rx w).2 = disc w) ∨
    (c.txOk w.out.length = true ∧ probesOf ((Core.process c rx w).2.out.drop w.out.length) = [0] ∧ disc (Core.process c rx w).2 =
      { disc w with ist := .probeMasterWait, rem := if w.tm.ok .main = true then c.initTimeout else w.tm.rem .main }) := by
  rw [process_init h]
  have hd := disc_pre c rx w
  have ho := pre_out c rx w
  have hp : (preProcess c rx w).2.v.ist = .probeMaster := by
    have := congrArg Disc.ist hd
    exact this.trans hi
  have hk : (preProcess c rx w).2.tm.ok .main = w.tm.ok .main := congrArg Disc.ok hd
  have hr : (preProcess c rx w).2.tm.rem .main = w.tm.rem .main := congrArg Disc.rem hd
  rw [← hd, ← ho, ← hk, ← hr]
  generalize (preProcess c rx w).2 = w1 at *
  unfold Core.stateInit
  rw [bind_run, get_run]
  dsimp only
  rw [hp]
  dsimp only
  rw [bind_run, tx_run _ _ _ _ (by decide)]
  dsimp only
  rw [whenM_run]
  by_cases hok : c.txOk w1.out.length = true
  · right
    rw [if_pos hok, bind_run, setV_run, timerStart_run]
    have hf : (bytes8 [Core.MASTER])[0] = 0 := rfl
    refine ⟨hok, ?_, ?_⟩
    · dsimp only
      split <;> simp [probesOf, hok, hf, frame, event]
    · dsimp only
      simp only [sent_tm, sent_v]
      split <;> rename_i hm
      · simp [disc]
      · simp [disc]
  · left
    rw [if_neg hok]
    have hok : c.txOk w1.out.length = false := by simpa using hok
    refine ⟨hok, ?_, ?_⟩
    · simp [probesOf, hok]
    · simp [disc]

/-- Waiting for the segment master. -/
theorem cycle_probeMasterWait (c : Ctx) (rx : Option Msg) (w : W) (h : w.v.st = .init) (hi : w.v.ist = .probeMasterWait) :
    (Core.process c rx w).2.out = w.out ∧
    (((disc w).running = false ∧ disc (Core.process c rx w).2 = { disc w with ist := .probe, probe := c.startProbe }) ∨
     ((disc w).running = true ∧ (disc (Core.process c rx w).2 = { disc w with st := .preActive } ∨ disc (Core.process c rx w).2 = disc w))) := by
  rw [process_init h]
  have hd := disc_pre c rx w
  have ho := pre_out c rx w
  have hp : (preProcess c rx w).2.v.ist = .probeMasterWait := by
    have := congrArg Disc.ist hd
    exact this.trans hi
  rw [← hd, ← ho]
  generalize (preProcess c rx w).2 = w1 at *
  unfold Core.stateInit
  rw [bind_run, get_run]
  dsimp only
  rw [hp]
  dsimp only
  rw [bind_run, timerRunning_run]
  dsimp only
  have hrun : (disc w1).running = (w1.tm.ok .main && w1.tm.rem .main != 0) := rfl
  rw [hrun]
  cases (w1.tm.ok .main && w1.tm.rem .main != 0) with
  | false => exact ⟨rfl, .inl ⟨rfl, rfl⟩⟩
  | true =>
    rw [if_neg (by simp), whenM_run]
    split
    · exact ⟨rfl, .inr ⟨rfl, .inl rfl⟩⟩
    · exact ⟨rfl, .inr ⟨rfl, .inr rfl⟩⟩

/-- Probing of a nickname. -/
theorem cycle_probe (c : Ctx) (rx : Option Msg) (w : W) (h : w.v.st = .init) (hi : w.v.ist = .probe) :
    (c.txOk w.out.length = false ∧ probesOf ((Core.process c rx w).2.out.drop w.out.length) = [] ∧ disc (Core.process c rx w).2 = disc w) ∨
    (c.txOk w.out.length = true ∧ probesOf ((Core.process c rx w).2.out.drop w.out.length) = [w.v.probe] ∧
      ((w.v.probe = 0xFF ∧ (Core.process c rx w).2.v.st = .idle) ∨
       (w.v.probe ≠ 0xFF ∧ disc (Core.process c rx w).2 =
          { disc w with ist := .probeWait, rem := if w.tm.ok .main = true then c.probeAckTimeout else w.tm.rem .main }))) := by
  rw [process_init h]
  have hd := disc_pre c rx w
  have ho := pre_out c rx w
  have hp : (preProcess c rx w).2.v.ist = .probe := by
    have := congrArg Disc.ist hd
    exact this.trans hi
  have hst : (preProcess c rx w).2.v.st = .init := by
    have := congrArg Disc.st hd
    exact this.trans h
  have hk : (preProcess c rx w).2.tm.ok .main = w.tm.ok .main := congrArg Disc.ok hd
  have hr : (preProcess c rx w).2.tm.rem .main = w.tm.rem .main := congrArg Disc.rem hd
  have hpr : (preProcess c rx w).2.v.probe = w.v.probe := congrArg Disc.probe hd
  rw [← hd, ← ho, ← hk, ← hr, ← hpr]
  generalize (preProcess c rx w).2 = w1 at *
  unfold Core.stateInit
  rw [bind_run, get_run]
  dsimp only
  rw [hp]
  dsimp only
  rw [bind_run, tx_run _ _ _ _ (by simp)]
  dsimp only
  rw [whenM_run]
  have hf : (bytes8 [w1.v.probe])[0] = w1.v.probe := rfl
  by_cases hok : c.txOk w1.out.length = true
  · right
    rw [if_pos hok]
    refine ⟨hok, ?_⟩
    by_cases hp : w1.v.probe = Core.NOT_INIT
    · rw [if_pos hp, bind_run, timerStop_run]
      dsimp only
      unfold Core.changeToStateIdle
      rw [bind_run, get_run]
      dsimp only
      have e : (if (sent c (frame c w1 7 2 [w1.v.probe]) w1).tm.ok .main = true then
          { sent c (frame c w1 7 2 [w1.v.probe]) w1 with tm := { (sent c (frame c w1 7 2 [w1.v.probe]) w1).tm with
            rem := fun x => if x = .main then 0 else (sent c (frame c w1 7 2 [w1.v.probe]) w1).tm.rem x } }
          else sent c (frame c w1 7 2 [w1.v.probe]) w1).out = w1.out ++ [.tx (frame c w1 7 2 [w1.v.probe]) true] := by
        split <;> simp [hok]
      have e2 : (if (sent c (frame c w1 7 2 [w1.v.probe]) w1).tm.ok .main = true then
          { sent c (frame c w1 7 2 [w1.v.probe]) w1 with tm := { (sent c (frame c w1 7 2 [w1.v.probe]) w1).tm with
            rem := fun x => if x = .main then 0 else (sent c (frame c w1 7 2 [w1.v.probe]) w1).tm.rem x } }
          else sent c (frame c w1 7 2 [w1.v.probe]) w1).v.st = .init := by
        split <;> simp [hst]
      revert e e2
      generalize (if (sent c (frame c w1 7 2 [w1.v.probe]) w1).tm.ok .main = true then
          { sent c (frame c w1 7 2 [w1.v.probe]) w1 with tm := { (sent c (frame c w1 7 2 [w1.v.probe]) w1).tm with
            rem := fun x => if x = .main then 0 else (sent c (frame c w1 7 2 [w1.v.probe]) w1).tm.rem x } }
          else sent c (frame c w1 7 2 [w1.v.probe]) w1) = w2
      intro e e2
      rw [whenM_run, if_pos (by rw [e2]; simp), bind_run, emit_run, bind_run, setV_run, whenM_run]
      dsimp only
      refine ⟨?_, .inl ⟨hp, ?_⟩⟩
      · split <;> simp [e, probesOf, hf, frame, event]
      · split <;> simp
    · rw [if_neg hp, bind_run, setV_run, timerStart_run]
      dsimp only
      refine ⟨?_, .inr ⟨hp, ?_⟩⟩
      · split <;> simp [probesOf, hok, hf, frame, event]
      · simp only [sent_tm, sent_v]
        split <;> simp [disc]
  · left
    rw [if_neg hok]
    have hok : c.txOk w1.out.length = false := by simpa using hok
    refine ⟨hok, ?_, ?_⟩
    · simp [probesOf, hok]
    · simp [disc]

theorem isProbeAckOf_iff (rx : Option Msg) (q : U8) : Core.isProbeAckOf rx q = true ↔ ∃ m, rx = some m ∧ ackFrom m q := by
  unfold Core.isProbeAckOf ackFrom
  cases rx with
  | none => simp
  | some m =>
    refine ⟨fun h => ⟨m, rfl, of_decide_eq_true h⟩, fun ⟨m', h1, h2⟩ => ?_⟩
    simp only [Option.some.injEq] at h1
    subst h1
    exact decide_eq_true h2

/-- Waiting for the acknowledge of a nickname. -/
theorem cycle_probeWait (c : Ctx) (rx : Option Msg) (w : W) (h : w.v.st = .init) (hi : w.v.ist = .probeWait) :
    ((disc w).running = false ∧ (Core.process c rx w).2.v.st = .active ∧ (Core.process c rx w).2.v.nick = w.v.probe ∧
      (Core.process c rx w).2.ps (Ps.addrNickname c) = w.v.probe) ∨
    ((disc w).running = true ∧ (Core.process c rx w).2.out = w.out ∧
      (((∃ m, (readMessage c rx w).1 = some m ∧ ackFrom m w.v.probe) ∧ disc (Core.process c rx w).2 =
          { disc w with ist := .probe, probe := w.v.probe + 1, rem := 0 }) ∨
       ((¬∃ m, (readMessage c rx w).1 = some m ∧ ackFrom m w.v.probe) ∧ disc (Core.process c rx w).2 = disc w))) := by
  rw [process_init h]
  have hd := disc_pre c rx w
  have ho := pre_out c rx w
  have hp : (preProcess c rx w).2.v.ist = .probeWait := by
    have := congrArg Disc.ist hd
    exact this.trans hi
  have hst : (preProcess c rx w).2.v.st = .init := by
    have := congrArg Disc.st hd
    exact this.trans h
  have hpr : (preProcess c rx w).2.v.probe = w.v.probe := congrArg Disc.probe hd
  rw [← hd, ← ho, ← hpr, ← isProbeAckOf_iff]
  generalize (preProcess c rx w).2 = w1 at *
  unfold Core.stateInit
  rw [bind_run, get_run]
  dsimp only
  rw [hp]
  dsimp only
  rw [bind_run, timerRunning_run]
  dsimp only
  have hrun : (disc w1).running = (w1.tm.ok .main && w1.tm.rem .main != 0) := rfl
  rw [hrun]
  cases hb : (w1.tm.ok .main && w1.tm.rem .main != 0) with
  | false =>
    left
    rw [if_pos rfl, bind_run, writeNick_run]
    unfold Core.changeToStateActive
    rw [bind_run, get_run]
    dsimp only
    rw [whenM_run, if_pos (by rw [hst]; simp), bind_run, emit_run, bind_run, setV_run, bind_run, txVoid_run _ _ _ _ (by simp), whenM_run]
    dsimp only
    split
    · rw [timerStart_run]
      dsimp only
      split <;> simp
    · simp
  | true =>
    right
    have hok : w1.tm.ok .main = true := by
      rw [Bool.and_eq_true] at hb
      exact hb.1
    rw [if_neg (by simp), whenM_run]
    refine ⟨rfl, ?_⟩
    by_cases ha : Core.isProbeAckOf (readMessage c rx w).1 w1.v.probe = true
    · rw [if_pos ha, bind_run, timerStop_run, if_pos hok, setV_run]
      exact ⟨rfl, .inl ⟨ha, rfl⟩⟩
    · rw [if_neg ha]
      exact ⟨rfl, .inr ⟨ha, rfl⟩⟩

/-- The pre-active node. -/
theorem cycle_preActive (c : Ctx) (rx : Option Msg) (w : W) (h : w.v.st = .preActive) :
    ((disc w).running = false ∧ probesOf ((Core.process c rx w).2.out.drop w.out.length) = [] ∧
      disc (Core.process c rx w).2 = { disc w with st := .init, ist := .probe, probe := c.startProbe }) ∨
    ((disc w).running = true ∧ ((Core.process c rx w).2.v.st = .active ∨
      (probesOf ((Core.process c rx w).2.out.drop w.out.length) = [] ∧ disc (Core.process c rx w).2 = disc w))) := by
  rw [process_preActive h]
  have hd := disc_pre c rx w
  have hst : (preProcess c rx w).2.v.st = .preActive := by
    have := congrArg Disc.st hd
    exact this.trans h
  have ho := pre_out c rx w
  rw [← hd, ← ho]
  generalize (preProcess c rx w).2 = w1 at *
  unfold Core.statePreActive
  rw [bind_run, timerRunning_run]
  dsimp only
  have hrun : (disc w1).running = (w1.tm.ok .main && w1.tm.rem .main != 0) := rfl
  rw [hrun]
  cases hb : (w1.tm.ok .main && w1.tm.rem .main != 0) with
  | false =>
    left
    rw [if_pos rfl]
    obtain ⟨h1, h2, h3, h4⟩ := changeInit_run c false w1 (by rw [hst]; simp)
    refine ⟨rfl, ?_, ?_⟩
    · unfold Core.changeToStateInit
      simp only [bind_run, get_run, whenM_run, if_pos (show w1.v.st ≠ .init by rw [hst]; simp), emit_run, setV_run, writeNick_run]
      simp [probesOf]
    · unfold disc
      rw [h1, h2, h3, h4]
      rfl
  | true =>
    right
    refine ⟨rfl, ?_⟩
    rw [if_neg (by simp)]
    cases hr : (readMessage c rx w).1 with
    | none => exact .inr ⟨by simp [probesOf], rfl⟩
    | some m =>
      dsimp only
      rw [whenM_run]
      split
      · left
        rw [bind_run, timerStop_run]
        dsimp only
        have hok : w1.tm.ok .main = true := by
          rw [Bool.and_eq_true] at hb
          exact hb.1
        rw [if_pos hok, bind_run, writeNick_run]
        dsimp only
        rw [bind_run, txVoid_run _ _ _ _ (by simp)]
        unfold Core.changeToStateActive
        rw [bind_run, get_run]
        dsimp only
        rw [whenM_run, if_pos (by rw [sent_v]; simp [hst]), bind_run, emit_run, bind_run, setV_run, bind_run, txVoid_run _ _ _ _ (by simp), whenM_run]
        dsimp only
        split
        · rw [timerStart_run]
          dsimp only
          split <;> simp
        · simp
      · exact .inr ⟨by simp [probesOf], rfl⟩

end Vscp
