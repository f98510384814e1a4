/-
C107: the AVR example starts.
-/
import Verif.Model.AvrBoot
import Verif.Props.SerialPort
import Verif.Props.Driver
import Verif.Props.AvrFw

namespace Vscp.Avr.Boot
open Vscp.Driver Vscp.Spec.SerialPort

theorem init_result (c : Ctx) (ok : Tmr → Bool) (w : W) : (Core.init c ok w).1 = timersGood c ok := by
  unfold Core.init
  simp only [M.bind_run]
  rfl

/-- The timer driver behind `vscp_core_init`: five timers, of which the fourth runs. -/
def vt0 : Timer.State 5 := #v[⟨0, 0⟩, ⟨1, 0⟩, ⟨2, 0⟩, ⟨3, 1000⟩, ⟨4, 0⟩]

theorem coreInit_eq (c : Ctx) (cb : Callbacks) (m : Machine) :
    coreInit c cb m = (true, { m with vt := vt0, w := (stepOpC c cb (.init fun _ => true) m.w).2 }) := by
  have hall : ∀ v : Timer.State 5, Timer.init v = #v[⟨0xFF, 0⟩, ⟨0xFF, 0⟩, ⟨0xFF, 0⟩, ⟨0xFF, 0⟩, ⟨0xFF, 0⟩] := by
    intro v; unfold Timer.init; decide +kernel
  have h1 : Timer.create (#v[⟨0xFF, 0⟩, ⟨0xFF, 0⟩, ⟨0xFF, 0⟩, ⟨0xFF, 0⟩, ⟨0xFF, 0⟩] : Timer.State 5) = (0, #v[⟨0, 0⟩, ⟨0xFF, 0⟩, ⟨0xFF, 0⟩, ⟨0xFF, 0⟩, ⟨0xFF, 0⟩]) := by decide +kernel
  have h2 : Timer.create (#v[⟨0, 0⟩, ⟨0xFF, 0⟩, ⟨0xFF, 0⟩, ⟨0xFF, 0⟩, ⟨0xFF, 0⟩] : Timer.State 5) = (1, #v[⟨0, 0⟩, ⟨1, 0⟩, ⟨0xFF, 0⟩, ⟨0xFF, 0⟩, ⟨0xFF, 0⟩]) := by decide +kernel
  have h3 : Timer.create (#v[⟨0, 0⟩, ⟨1, 0⟩, ⟨0xFF, 0⟩, ⟨0xFF, 0⟩, ⟨0xFF, 0⟩] : Timer.State 5) = (2, #v[⟨0, 0⟩, ⟨1, 0⟩, ⟨2, 0⟩, ⟨0xFF, 0⟩, ⟨0xFF, 0⟩]) := by decide +kernel
  have h4 : Timer.create (#v[⟨0, 0⟩, ⟨1, 0⟩, ⟨2, 0⟩, ⟨0xFF, 0⟩, ⟨0xFF, 0⟩] : Timer.State 5) = (3, #v[⟨0, 0⟩, ⟨1, 0⟩, ⟨2, 0⟩, ⟨3, 0⟩, ⟨0xFF, 0⟩]) := by decide +kernel
  have hs : Timer.start 3 1000 (#v[⟨0, 0⟩, ⟨1, 0⟩, ⟨2, 0⟩, ⟨3, 0⟩, ⟨0xFF, 0⟩] : Timer.State 5) = #v[⟨0, 0⟩, ⟨1, 0⟩, ⟨2, 0⟩, ⟨3, 1000⟩, ⟨0xFF, 0⟩] := by decide +kernel
  have h5 : Timer.create (#v[⟨0, 0⟩, ⟨1, 0⟩, ⟨2, 0⟩, ⟨3, 1000⟩, ⟨0xFF, 0⟩] : Timer.State 5) = (4, vt0) := by decide +kernel
  have g : ∀ (i : U8) (v : Timer.State 5), i ≠ Timer.INVALID → given (i, v) = true := by
    intro i v h; unfold given; exact decide_eq_true h
  unfold coreInit
  simp only [hall, h1, h2, h3, h4]
  rw [g 3 _ (by decide)]
  simp only [if_true, hs, h5]
  rw [g 0 _ (by decide), g 1 _ (by decide), g 2 _ (by decide), g 4 _ (by decide)]
  have e : (fun x : Tmr => match x with
    | .main => true
    | .guidDrop => true
    | .reg162 => true
    | .epoch => true
    | .heartbeat => true) = fun _ => true := by
    funext t; cases t <;> rfl
  have e' : ∀ f : Tmr → Bool, f = (fun _ => true) → ((Core.init c f m.w).1, { m with vt := vt0, w := (stepOpC c cb (.init f) m.w).2 }) =
      (true, { m with vt := vt0, w := (stepOpC c cb (.init fun _ => true) m.w).2 }) := by
    intro f hf
    subst hf
    rw [init_result]
    have : timersGood c.toCfg (fun _ => true) = true := by simp [timersGood]
    rw [this]
  exact e' _ (by funext t; cases t <;> rfl)

/-- C107: Whatever the memory contains and whatever was left by the run before, a start behind a reset leads to the main loop.  There the watchdog is off; the hardware
timer runs and calls the callback; the serial port is open with 38400 baud (1 % off at most), 8 data bits, no parity, one stop bit, and empty buffers; the framework is
initialised, its timers are those of the timer driver; the 250 ms timer and the clock start from the beginning.  These are the states in which the
histories of C72 - C79, C87 - C91 and C106 begin. -/
theorem C107_starts (s : Surr) (n : Nat) (ps : Nat → U8) (m : Machine) (hw : m.w = powerUp ps) (past : List Out) :
    ∃ m', start (s.ctx n) (s.cb n) m = .running m' ∧
      m'.wd = ⟨false, false⟩ ∧
      m'.tmr = (TimerDrv.run [.set true] TimerDrv.init).1 ∧
      ((⟨(m'.serial.ctx 0).rx, (m'.serial.ctx 0).overflow, .idle⟩ : Serial.Rx.State) = Serial.Rx.start m.rxBuf.toList 10 ∧
       (⟨(m'.serial.ctx 0).tx, txInt (m'.serial.hw 0), false, false, .idle⟩ : Serial.Tx.State) = Serial.Tx.start m.txBuf.toList 10 ∧
       usedData (m'.serial.hw 0) = some 8 ∧ usedParity (m'.serial.hw 0) = some .no ∧ usedStop (m'.serial.hw 0) = 1 ∧
       async (m'.serial.hw 0) = true ∧ rateWithin 10 (m'.serial.hw 0) 38400 ∧
       rxOn (m'.serial.hw 0) = true ∧ txOn (m'.serial.hw 0) = true ∧ rxInt (m'.serial.hw 0) = true) ∧
      m'.w = (boot s past n ps).w ∧
      (∀ t, m'.w.tm.ok t = true) ∧ DrvProps.Sim m'.w.tm m'.vt ∧
      m'.sw = MainLoop.initSw 2 ∧ m'.clk = Clock.init := by
  have hl1 : m.rxBuf.toList.length = (10 : U8).toNat := by rw [Vector.length_toList]; rfl
  have hl2 : m.txBuf.toList.length = (10 : U8).toNat := by rw [Vector.length_toList]; rfl
  have ha : argsOk 3 0 0 := ⟨by decide, by decide, by decide⟩
  obtain ⟨s1, e1, e2, e3, -⟩ := Serial.Port.C104_start m.serial 0 m.rxBuf.toList m.txBuf.toList 10 10 (by decide) (by decide) hl1 hl2 6 3 0 0 (by decide) ha
  have hr : ready (Serial.Port.initUsart (some 0) m.rxBuf.toList 10 m.txBuf.toList 10 (Serial.Port.init m.serial)) 0 := by
    by_cases h : ready (Serial.Port.initUsart (some 0) m.rxBuf.toList 10 m.txBuf.toList 10 (Serial.Port.init m.serial)) 0
    · exact h
    · obtain ⟨r, s2, g1, g2, -⟩ := Serial.Port.C104_refuses (Serial.Port.initUsart (some 0) m.rxBuf.toList 10 m.txBuf.toList 10 (Serial.Port.init m.serial)) (some 0) 6 3 0 0 (by decide)
      rw [e1] at g1
      cases g1
      obtain ⟨⟨i, hi, hr⟩, -⟩ := g2.1 rfl
      cases hi
      exact hr
  obtain ⟨s2, f0, -, -, f1, f2, f3, f4, f5, f6, f7, f8, f9, f10, f11⟩ := Serial.Port.C104_open_partial _ 0 6 3 0 0 hr (by decide) ha
  rw [e1] at f0
  cases f0
  have hstart : start (s.ctx n) (s.cb n) m = .running { m with
      wd := ⟨false, false⟩
      tmr := (TimerDrv.run [.set true] TimerDrv.init).1
      serial := s1
      vt := vt0
      w := (boot s past n ps).w
      sw := MainLoop.initSw 2
      clk := Clock.init } := by
    unfold start initRunLevel1
    dsimp only
    rw [show Serial.Port.get 0 = some 0 from rfl, e1]
    dsimp only
    rw [coreInit_eq]
    simp only [decide_true, Bool.and_true, initRunLevel2, if_true, boot, hw]
    rfl
  refine ⟨_, hstart, rfl, rfl, ⟨e2, e3, f1 (by decide), f2, f3, f4, f11 (by decide) (by decide), f5, f6, f7⟩, rfl, ?_, ?_, rfl, rfl⟩
  · intro t
    show (Core.init (s.ctx n) (fun _ => true) (powerUp ps)).2.tm.ok t = true
    rw [init_ok]
  · intro t _
    obtain ⟨w1, h1, h2⟩ := init_steps (s.ctx n) (fun _ => true) (powerUp ps)
    have hr : (boot s past n ps).w.tm.rem t = if t = .epoch then 1000 else 0 := by
      show (Core.init (s.ctx n) (fun _ => true) (powerUp ps)).2.tm.rem t = _
      rw [h2.same (.tm t) (by cases t <;> decide)]
      show w1.tm.rem t = _
      rw [h1.tm]
      simp
    show ∃ h : DrvProps.order t < 5, vt0[DrvProps.order t].id ≠ Timer.INVALID ∧ vt0[DrvProps.order t].value = (boot s past n ps).w.tm.rem t
    rw [hr]
    cases t <;> exact ⟨by decide, by decide, by decide⟩

/-- C107: a watchdog which has reset the controller is switched off by the start, whatever its registers contain: it does not bite again.  (It would, if its flag
were not cleared first: then it could not be switched off.) -/
theorem C107_watchdog (d : Wd) : bite (disableWatchdog d) = none ∧ bite (hwInit (disableWatchdog d)) = none ∧
    (bite (wdtEnable d)).map disableWatchdog = some ⟨false, false⟩ := by
  cases d with
  | mk a b => cases a <;> cases b <;> decide

/-! ### Concrete cases -/

/-- The machine behind a watchdog reset, with used variables. -/
def exMachine : Machine where
  wd := ⟨true, true⟩
  tmr := ⟨7, true, true, ⟨9, 200⟩⟩
  serial := Serial.Port.reset
  rxBuf := Vector.replicate 10 1
  txBuf := Vector.replicate 10 2
  vt := Vector.replicate 5 ⟨3, 77⟩
  w := powerUp AvrProps.exMem
  sw := Vector.replicate 2 ⟨1, true, 1⟩
  clk := ⟨⟨5, 4, 3, 2⟩, 1⟩

example : ∃ m', start (AvrProps.exSurr.ctx 3) (AvrProps.exSurr.cb 3) exMachine = .running m' ∧ m'.w.v.nick = 5 := by
  obtain ⟨m', h, _, _, _, hw, _⟩ := C107_starts AvrProps.exSurr 3 AvrProps.exMem exMachine rfl []
  refine ⟨m', h, ?_⟩
  rw [hw]
  decide +kernel

-- A timer which could not be created would halt the start.
example : timersGood (Avr.cfg 16) (fun t => t != .heartbeat) = false := by decide

end Vscp.Avr.Boot
