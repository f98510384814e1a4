/-
C111: the AVR example as a whole.
-/
import Verif.Spec.AvrSys
import Verif.Props.CanConfig
import Verif.Props.Main
import Verif.Props.Clock
import Verif.Props.Sleep

namespace Vscp.Avr.Sys
open Vscp.Driver Vscp.Spec Vscp.Spec.AvrSys Vscp.Safety
open Vscp.Driver.CanNode (Around Res)
open Vscp.Spec.Main (held heldStep)

/-! ### One move -/

/-- Software timer 1 runs with a period of 250 ms. -/
structure SwOk (s : SwTimer.State 2) : Prop where
  auto : s[1].isManual = false
  start : s[1].startValue = 250
  le : s[1].value.toNat ≤ 250

/-- Remaining milliseconds of the period. -/
def rest (y : State) : Nat := y.sw[1].value.toNat

structure Inv (s : Surr) (y : State) : Prop where
  good : CanNode.Good (s.ctx y.fw.life) (node y)
  sw : SwOk y.sw

theorem sw_init : SwOk (MainLoop.initSw 2) ∧ (MainLoop.initSw 2)[1].value.toNat = 250 := by
  have e := MainProps.initSw_get (n := 2) (by decide)
  exact ⟨⟨by rw [e], by rw [e], by rw [e]; decide⟩, by rw [e]; rfl⟩

theorem sw_tick {s : SwTimer.State 2} (h : SwOk s) : SwOk (SwTimer.process s) ∧ (SwTimer.process s)[1].value.toNat = s[1].value.toNat - 1 := by
  obtain ⟨⟨a, b, c⟩, -, d⟩ := MainProps.move_tick (n := 2) (m := 0) ⟨s, #v[]⟩ (by decide) ⟨h.auto, h.start, h.le⟩
  exact ⟨⟨a, b, c⟩, d⟩

theorem sw_poll {s : SwTimer.State 2} (h : SwOk s) :
    (s[1].value.toNat = 0 ∧ (SwTimer.getStatus MainLoop.ID s).1 = true ∧ SwOk (SwTimer.getStatus MainLoop.ID s).2 ∧ (SwTimer.getStatus MainLoop.ID s).2[1].value.toNat = 250) ∨
    (0 < s[1].value.toNat ∧ SwTimer.getStatus MainLoop.ID s = (false, s)) := by
  by_cases hz : s[1].value = 0
  · left
    have e : SwTimer.getStatus MainLoop.ID s = (true, s.set 1 { s[1] with value := s[1].startValue }) := by
      simp only [SwTimer.getStatus, show MainLoop.ID.toNat = 1 from rfl]
      rw [dif_pos (by decide), if_pos hz, if_pos h.auto]
    rw [e]
    refine ⟨by rw [hz]; rfl, rfl, ⟨?_, ?_, ?_⟩, ?_⟩ <;> simp only [Vector.getElem_set_self, h.auto, h.start]
    · decide
    · rfl
  · right
    refine ⟨Nat.pos_of_ne_zero fun h => hz (BitVec.eq_of_toNat_eq h), ?_⟩
    simp only [SwTimer.getStatus, show MainLoop.ID.toNat = 1 from rfl]
    rw [dif_pos (by decide), if_neg hz]

theorem follow_self (f : Fw) : follow f f.w = f := by
  unfold follow
  rw [List.drop_eq_nil_of_le (Nat.le_refl _)]
  rfl

theorem call_eq (s : Surr) (op : Op) (f : Fw) : Avr.call s op f = follow f (stepOpC (s.ctx f.life) (s.cb f.life) op f.w).2 := rfl

variable {s : Surr} {a : Nat → Around}

theorem call_life' (op : Op) (f : Fw) : (Avr.call s op f).life = f.life := rfl
theorem call_last' (op : Op) (f : Fw) : (Avr.call s op f).last = f.last := rfl
theorem call_w (op : Op) (f : Fw) : (Avr.call s op f).w = (stepOpC (s.ctx f.life) (s.cb f.life) op f.w).2 := rfl

theorem boot_inv (past : List Out) (n : Nat) (ps : Nat → U8) (ctl : CanDrv.State) : Inv s (boot s past n ps ctl) :=
  ⟨CanNode.boot_good (AvrProps.good s.sz (s.env n)) (s.cb n) (fun _ => true) ps ctl, sw_init.1⟩

/-- What a move of the node does. -/
theorem act_cycle {y : State} (h : Inv s y) : act s a .cycle y = .impossible ∨ ∃ m x, (Op.process m).Ok ∧
    act s a .cycle y = .ok { y with fw := Avr.call s (.process m) y.fw, x, heard := y.heard ++ m.toList } ∧
    CanNode.Good (s.ctx y.fw.life) ⟨(Avr.call s (.process m) y.fw).w, x, y.heard ++ m.toList⟩ ∧
    CanNode.move (s.ctx y.fw.life) (s.cb y.fw.life) (a y.fw.life) (node y) .cycle = .ok ⟨(Avr.call s (.process m) y.fw).w, x, y.heard ++ m.toList⟩ := by
  rcases CanNode.cycle_good (c := s.ctx y.fw.life) (cb := s.cb y.fw.life) (AvrProps.good s.sz (s.env _)) (AvrProps.cb_ok _) (a y.fw.life) h.good with e | ⟨n', m, e, h1, h2, h3, -, -, h4, -⟩
  · left; unfold act; rw [e]
  · right
    have hn : n' = ⟨n'.w, n'.x, n'.heard⟩ := rfl
    rw [h2, h3] at hn
    refine ⟨m, n'.x, h4, ?_, ?_, ?_⟩
    · unfold act
      rw [e]
      dsimp only
      rw [h2, h3]
      rfl
    · rw [hn] at h1
      exact h1
    · first | rw [e] | (simp only [CanNode.move]; rw [e])
      exact congrArg _ hn

theorem act_call {y : State} (h : Inv s y) {op : Op} (hop : op.Ok) : act s a (.call op) y = .impossible ∨ ∃ x,
    act s a (.call op) y = .ok { y with fw := Avr.call s op y.fw, x } ∧
    CanNode.Good (s.ctx y.fw.life) ⟨(Avr.call s op y.fw).w, x, y.heard⟩ ∧
    CanNode.move (s.ctx y.fw.life) (s.cb y.fw.life) (a y.fw.life) (node y) (.call op) = .ok ⟨(Avr.call s op y.fw).w, x, y.heard⟩ := by
  rcases CanNode.callFw_good (c := s.ctx y.fw.life) (cb := s.cb y.fw.life) (AvrProps.good s.sz (s.env _)) (AvrProps.cb_ok _) (a y.fw.life) hop h.good with e | ⟨n', e, h1, h2, h3, -⟩
  · left; unfold act; simp only [CanNode.move]; rw [e]
  · right
    have hn : n' = ⟨n'.w, n'.x, n'.heard⟩ := rfl
    rw [h2, h3] at hn
    refine ⟨n'.x, ?_, ?_, ?_⟩
    · unfold act
      simp only [CanNode.move]
      rw [e]
      dsimp only
      rw [h2, h3]
      rfl
    · rw [hn] at h1
      exact h1
    · first | rw [e] | (simp only [CanNode.move]; rw [e])
      exact congrArg _ hn

theorem act_bus {y : State} (h : Inv s y) {mv : CanNode.Move} (hm : (∃ b, mv = .rx b ∧ Spec.CanDrv.Valid b) ∨ mv = .tx) : ∃ x,
    act s a mv y = .ok { y with x } ∧ CanNode.Good (s.ctx y.fw.life) ⟨y.fw.w, x, y.heard⟩ ∧
    CanNode.move (s.ctx y.fw.life) (s.cb y.fw.life) (a y.fw.life) (node y) mv = .ok ⟨y.fw.w, x, y.heard⟩ := by
  rcases hm with ⟨b, rfl, hb⟩ | rfl
  · refine ⟨_, ?_, (CanNode.rx_good h.good b hb).1, rfl⟩
    simp only [act, CanNode.move, node, follow_self]
  · refine ⟨_, ?_, CanNode.tx_good h.good, rfl⟩
    simp only [act, CanNode.move, node, follow_self]

/-- The firmware 250 ms later. -/
def later (s : Surr) (f : Fw) : Fw := Avr.periodic s ⟨none, false, false, true⟩ f

def withLed (f : Fw) (x : Lamp.State) : Fw := { f with led := x }
theorem withLed_life (f : Fw) (x : Lamp.State) : (withLed f x).life = f.life := rfl
theorem withLed_last (f : Fw) (x : Lamp.State) : (withLed f x).last = f.last := rfl
theorem withLed_w (f : Fw) (x : Lamp.State) : (withLed f x).w = f.w := rfl

theorem later_eq (f : Fw) : later s f =
    withLed (Avr.call s (.tick 250) f) (Lamp.process (Spec.lampAfter .off (Avr.call s (.tick 250) f).w.out) (Avr.call s (.tick 250) f).led) := by
  unfold later Avr.periodic
  rw [if_pos rfl]
  rfl

theorem later_of (i : In) (h : i.due = true) (f : Fw) : Avr.periodic s i f = later s f := by
  unfold later Avr.periodic
  rw [if_pos h, if_pos rfl]

theorem later_life (f : Fw) : (later s f).life = f.life := by rw [later_eq, withLed_life, call_life']
theorem later_last (f : Fw) : (later s f).last = f.last := by rw [later_eq, withLed_last, call_last']
theorem later_w (f : Fw) : (later s f).w = (stepOpC (s.ctx f.life) (s.cb f.life) (.tick 250) f.w).2 := by
  rw [later_eq, withLed_w, call_w]

/-- All that a move can do. -/
inductive Does (s : Surr) (a : Nat → Around) (y : State) : Move → State → Prop
  | tick (b : Bool) : Does s a y (.tick b) (timerCb b y)
  | cycle (m : Option Msg) (x : CanNode.Drv) (hpc : y.pc = .process) (hm : (Op.process m).Ok)
      (hr : .resetRequest ∉ (Avr.call s (.process m) y.fw).w.out.drop y.fw.w.out.length)
      (hc : CanNode.move (s.ctx y.fw.life) (s.cb y.fw.life) (a y.fw.life) (node y) .cycle = .ok ⟨(Avr.call s (.process m) y.fw).w, x, y.heard ++ m.toList⟩) :
      Does s a y .step { y with fw := Avr.call s (.process m) y.fw, x, heard := y.heard ++ m.toList, pc := .check }
  | reset (m : Option Msg) (ctl : CanDrv.State) (hpc : y.pc = .process) (hm : (Op.process m).Ok)
      (hr : .resetRequest ∈ (Avr.call s (.process m) y.fw).w.out.drop y.fw.w.out.length) :
      Does s a y .step (let f := Avr.call s (.process m) y.fw; boot s (f.past ++ f.w.out) (f.life + 1) f.w.ps ctl)
  | segInit (x : CanNode.Drv) (hpc : y.pc = .check) (hp : y.pressed = true) (hl : y.fw.last = false)
      (hc : CanNode.move (s.ctx y.fw.life) (s.cb y.fw.life) (a y.fw.life) (node y) (.call .startNodeSegmentInit) = .ok ⟨(Avr.call s .startNodeSegmentInit y.fw).w, x, y.heard⟩) :
      Does s a y .step { y with fw := Avr.call s .startNodeSegmentInit y.fw, x, pc := .remember }
  | quiet (hpc : y.pc = .check) (hp : (y.pressed && !y.fw.last) = false) : Does s a y .step { y with pc := .remember }
  | remember (hpc : y.pc = .remember) : Does s a y .step (stepRemember y)
  | due (x : CanNode.Drv) (sw : SwTimer.State 2) (hpc : y.pc = .periodic) (hz : rest y = 0) (hsw : sw[1].value.toNat = 250)
      (hc : CanNode.move (s.ctx y.fw.life) (s.cb y.fw.life) (a y.fw.life) (node y) (.call (.tick 250)) = .ok ⟨(later s y.fw).w, x, y.heard⟩) :
      Does s a y .step { y with fw := later s y.fw, x, sw, clk := Clock.process (MainLoop.PERIOD.setWidth 16) y.clk, pc := .process }
  | notDue (hpc : y.pc = .periodic) (hz : 0 < rest y) : Does s a y .step { y with pc := .process }
  | rx (b : CanDrv.BusFrame) (x : CanNode.Drv) (hc : CanNode.move (s.ctx y.fw.life) (s.cb y.fw.life) (a y.fw.life) (node y) (.rx b) = .ok ⟨y.fw.w, x, y.heard⟩) : Does s a y (.rx b) { y with x }
  | tx (x : CanNode.Drv) (hc : CanNode.move (s.ctx y.fw.life) (s.cb y.fw.life) (a y.fw.life) (node y) .tx = .ok ⟨y.fw.w, x, y.heard⟩) : Does s a y .tx { y with x }
  | power : Does s a y .power (reboot s y)

theorem move_does {y : State} (h : Inv s y) (mv : Move) (hm : AvrSys.Ok mv) :
    move s a y mv = .impossible ∨ ∃ y', move s a y mv = .ok y' ∧ Does s a y mv y' ∧ Inv s y' := by
  cases mv with
  | tick b => exact .inr ⟨_, rfl, .tick b, ⟨h.good, (sw_tick h.sw).1⟩⟩
  | power => exact .inr ⟨_, rfl, .power, boot_inv ..⟩
  | rx b =>
    obtain ⟨x, e, hg, hc⟩ := act_bus (a := a) h (.inl ⟨b, rfl, hm⟩)
    exact .inr ⟨_, e, .rx b x hc, ⟨hg, h.sw⟩⟩
  | tx =>
    obtain ⟨x, e, hg, hc⟩ := act_bus (a := a) h (.inr rfl)
    exact .inr ⟨_, e, .tx x hc, ⟨hg, h.sw⟩⟩
  | step =>
    simp only [move, step]
    cases hpc : y.pc with
    | process =>
      dsimp only
      unfold stepProcess
      rcases act_cycle (a := a) h with e | ⟨m, x, hm, e, hg, hc⟩
      · left; rw [e]
      · right
        rw [e]
        dsimp only
        by_cases hr : Out.resetRequest ∈ (Avr.call s (.process m) y.fw).w.out.drop y.fw.w.out.length
        · rw [if_pos hr]
          exact ⟨_, rfl, .reset m x.1 hpc hm hr, boot_inv ..⟩
        · rw [if_neg hr]
          exact ⟨_, rfl, .cycle m x hpc hm hr hc, ⟨hg, h.sw⟩⟩
    | check =>
      dsimp only
      unfold stepCheck
      by_cases hp : (y.pressed && !y.fw.last) = true
      · rw [if_pos hp]
        rcases act_call (a := a) h (op := .startNodeSegmentInit) trivial with e | ⟨x, e, hg, hc⟩
        · left; rw [e]
        · right
          rw [e]
          simp only [Bool.and_eq_true, Bool.not_eq_true'] at hp
          exact ⟨_, rfl, .segInit x hpc hp.1 hp.2 hc, ⟨hg, h.sw⟩⟩
      · rw [if_neg hp]
        exact .inr ⟨_, rfl, .quiet hpc (by simpa using hp), ⟨h.good, h.sw⟩⟩
    | remember => exact .inr ⟨_, rfl, .remember hpc, ⟨h.good, h.sw⟩⟩
    | periodic =>
      dsimp only
      unfold stepPeriodic
      dsimp only
      rcases sw_poll h.sw with ⟨hz, e1, hs, hv⟩ | ⟨hz, e1⟩
      · rw [if_pos e1]
        have h' : Inv s { y with sw := (SwTimer.getStatus MainLoop.ID y.sw).2 } := ⟨h.good, hs⟩
        rcases act_call (a := a) h' (op := .tick 250) trivial with e | ⟨x, e, hg, hc⟩
        · left; rw [e]
        · right
          rw [e]
          refine ⟨_, ?_, Does.due (s := s) x _ hpc hz hv ?_, ⟨?_, hs⟩⟩
          · rw [later_eq]
            unfold withLed
            rfl
          · rw [later_w]
            exact hc
          · show CanNode.Good (s.ctx (later s y.fw).life) ⟨(later s y.fw).w, x, y.heard⟩
            rw [later_life, later_w]
            exact hg
      · rw [e1]
        exact .inr ⟨_, rfl, .notDue hpc hz, ⟨h.good, h.sw⟩⟩

theorem run_does {l : List Move} {y y' : State} (h : Inv s y) (hl : ∀ mv ∈ l, AvrSys.Ok mv) {mv : Move} (hmv : AvrSys.Ok mv) (hr : run s a (mv :: l) y = .ok y') :
    ∃ y1, Does s a y mv y1 ∧ Inv s y1 ∧ run s a l y1 = .ok y' := by
  rcases move_does (a := a) h mv hmv with e | ⟨y1, e, h1, h2⟩
  · simp only [run, e] at hr
    cases hr
  · simp only [run, e] at hr
    exact ⟨y1, h1, h2, hr⟩

theorem run_append (l : List Move) : ∀ (l' : List Move) (y : State), run s a (l ++ l') y = match run s a l y with
    | .ok y => run s a l' y | .ub => .ub | .impossible => .impossible := by
  induction l with
  | nil => intro l' y; rfl
  | cons mv l ih =>
    intro l' y
    simp only [List.cons_append, run]
    cases move s a y mv with
    | ok y => exact ih l' y
    | ub => rfl
    | impossible => rfl

theorem run_inv : ∀ (l : List Move) {y : State}, Inv s y → (∀ mv ∈ l, AvrSys.Ok mv) → run s a l y = .impossible ∨ ∃ y', run s a l y = .ok y' ∧ Inv s y'
  | [], y, h, _ => .inr ⟨y, rfl, h⟩
  | mv :: l, y, h, hl => by
    rcases move_does (a := a) h mv (hl _ (List.mem_cons_self ..)) with e | ⟨y1, e, -, h2⟩
    · left; simp only [run, e]
    · simp only [run, e]
      exact run_inv l h2 fun mv h => hl mv (List.mem_cons_of_mem _ h)

theorem inv_of {l : List Move} {y y' : State} (h : Inv s y) (hl : ∀ mv ∈ l, AvrSys.Ok mv) (hr : run s a l y = .ok y') : Inv s y' := by
  rcases run_inv (a := a) l h hl with e | ⟨y1, e, h1⟩
  · rw [e] at hr; cases hr
  · rw [e] at hr; cases hr; exact h1

/-! ### The firmware -/

theorem call_last (op : Op) (f : Fw) : (Avr.call s op f).last = f.last := rfl
theorem call_life (op : Op) (f : Fw) : (Avr.call s op f).life = f.life := rfl

theorem ok_small {m : Option Msg} (h : (Op.process m).Ok) : ∀ x, m = some x → x.size.toNat ≤ 8 := by
  intro x e; subst e; exact h

theorem fw_run_append (l l' : List Avr.Move) (f : Fw) : Avr.run s (l ++ l') f = Avr.run s l' (Avr.run s l f) := by
  induction l generalizing f with
  | nil => rfl
  | cons m l ih => exact ih _

/-- The firmware is within a pass behind a history of passes. -/
def Hist (s : Surr) (ps : Nat → U8) (y : State) : Prop :=
  ∃ l, (∀ m ∈ l, AvrProps.MoveOk m) ∧ Within s (Avr.run s l (Avr.boot s [] 0 ps)) y.fw y.pc

theorem Hist.snoc {ps : Nat → U8} {l : List Avr.Move} (hl : ∀ m ∈ l, AvrProps.MoveOk m) {m : Avr.Move} (hm : AvrProps.MoveOk m) {y : State} (hpc : y.pc = .process)
    (e : y.fw = Avr.move s m (Avr.run s l (Avr.boot s [] 0 ps))) : Hist s ps y := by
  refine ⟨l ++ [m], ?_, ?_⟩
  · intro x hx
    rcases List.mem_append.1 hx with h | h
    · exact hl x h
    · rw [List.mem_singleton.1 h]; exact hm
  · rw [hpc, fw_run_append]
    exact e

theorem pass_eq {i : In} {f : Fw} (h : .resetRequest ∉ (Avr.call s (.process i.rx) f).w.out.drop f.w.out.length) :
    Avr.pass s i f = Avr.periodic s i (Avr.button s i (Avr.call s (.process i.rx) f)) := by
  unfold Avr.pass
  dsimp only
  rw [if_neg h]

/-- Power off in the middle of a pass is power off behind a shorter one. -/
theorem hist_power {ps : Nat → U8} {y : State} (h : Hist s ps y) : Hist s ps (reboot s y) := by
  obtain ⟨l, hl, hw⟩ := h
  generalize hf : Avr.run s l (Avr.boot s [] 0 ps) = f at hw
  have key : ∀ i : In, i.due = false → (∀ m, i.rx = some m → m.size.toNat ≤ 8) → .resetRequest ∉ (Avr.call s (.process i.rx) f).w.out.drop f.w.out.length →
      (∃ b, { y.fw with last := b } = Avr.button s i (Avr.call s (.process i.rx) f)) → Hist s ps (reboot s y) := by
    rintro i hd hi hr ⟨b, e⟩
    have e1 : Avr.run s (l ++ [.pass i]) (Avr.boot s [] 0 ps) = { y.fw with last := b } := by
      rw [fw_run_append, hf]
      show Avr.pass s i f = _
      rw [pass_eq hr, ← e]
      unfold Avr.periodic
      rw [hd]
      rfl
    refine Hist.snoc (l := l ++ [.pass i]) (m := .power) ?_ trivial rfl ?_
    · intro x hx
      rcases List.mem_append.1 hx with h | h
      · exact hl x h
      · rw [List.mem_singleton.1 h]; exact hi
    · rw [e1]; rfl
  cases hpc : y.pc <;> rw [hpc] at hw
  · refine Hist.snoc hl (m := .power) trivial rfl ?_
    rw [hf, ← show y.fw = f from hw]; rfl
  · obtain ⟨rx, h1, e, hr⟩ := hw
    rw [e] at hr
    exact key ⟨rx, false, false, false⟩ rfl h1 hr ⟨false, by rw [e]; rfl⟩
  · obtain ⟨rx, p, h1, hr, e⟩ := hw
    exact key ⟨rx, p, false, false⟩ rfl h1 hr ⟨false, by rw [e]; rfl⟩
  · obtain ⟨rx, p, p', h1, hr, e⟩ := hw
    exact key ⟨rx, p, p', false⟩ rfl h1 hr ⟨p', by rw [e]; rfl⟩

theorem does_hist {ps : Nat → U8} {y y' : State} {mv : Move} (hd : Does s a y mv y') (h : Hist s ps y) : Hist s ps y' := by
  have h0 := h
  obtain ⟨l, hl, hw⟩ := h
  generalize hf : Avr.run s l (Avr.boot s [] 0 ps) = f at hw
  cases hd with
  | tick b => exact h0
  | rx b x hc => exact h0
  | tx x hc => exact h0
  | power => exact hist_power h0
  | cycle m x hpc hm hr hc =>
    rw [hpc] at hw
    have e : y.fw = f := hw
    refine ⟨l, hl, ?_⟩
    rw [hf]
    exact ⟨m, ok_small hm, by rw [e], by rw [← e]; exact hr⟩
  | reset m ctl hpc hm hr =>
    rw [hpc] at hw
    have e : y.fw = f := hw
    refine Hist.snoc hl (m := .pass ⟨m, false, false, false⟩) (ok_small hm) rfl ?_
    rw [hf, ← e]
    show _ = Avr.pass s _ y.fw
    unfold Avr.pass
    dsimp only
    rw [if_pos hr]
    rfl
  | segInit x hpc hp hl' hc =>
    rw [hpc] at hw
    obtain ⟨rx, h1, e, hr⟩ := hw
    refine ⟨l, hl, ?_⟩
    rw [hf]
    rw [e] at hr
    refine ⟨rx, true, h1, hr, ?_⟩
    unfold Avr.button
    dsimp only
    rw [if_pos (by rw [← e, hl']; rfl), e]
    rfl
  | quiet hpc hp =>
    rw [hpc] at hw
    obtain ⟨rx, h1, e, hr⟩ := hw
    refine ⟨l, hl, ?_⟩
    rw [hf]
    rw [e] at hr
    refine ⟨rx, y.pressed, h1, hr, ?_⟩
    unfold Avr.button
    dsimp only
    rw [if_neg (by rw [← e, hp]; decide), e]
    rfl
  | remember hpc =>
    rw [hpc] at hw
    obtain ⟨rx, p, h1, hr, e⟩ := hw
    refine ⟨l, hl, ?_⟩
    rw [hf]
    refine ⟨rx, p, y.pressed, h1, hr, ?_⟩
    show { y.fw with last := y.pressed } = _
    rw [e]
    rfl
  | due x sw hpc hz hsw hc =>
    rw [hpc] at hw
    obtain ⟨rx, p, p', h1, hr, e⟩ := hw
    refine Hist.snoc hl (m := .pass ⟨rx, p, p', true⟩) h1 rfl ?_
    rw [hf]
    show later s y.fw = Avr.pass s ⟨rx, p, p', true⟩ f
    rw [pass_eq (i := ⟨rx, p, p', true⟩) hr, later_of _ rfl, e]
    unfold Avr.button
    rfl
  | notDue hpc hz =>
    rw [hpc] at hw
    obtain ⟨rx, p, p', h1, hr, e⟩ := hw
    refine Hist.snoc hl (m := .pass ⟨rx, p, p', false⟩) h1 rfl ?_
    rw [hf]
    show y.fw = Avr.pass s ⟨rx, p, p', false⟩ f
    rw [pass_eq (i := ⟨rx, p, p', false⟩) hr, e]
    rfl

theorem run_hist {ps : Nat → U8} : ∀ (l : List Move) {y y' : State}, Inv s y → (∀ mv ∈ l, AvrSys.Ok mv) → Hist s ps y → run s a l y = .ok y' → Hist s ps y'
  | [], y, y', _, _, hh, hr => by cases hr; exact hh
  | mv :: l, y, y', h, hl, hh, hr => by
    have hl' : ∀ mv ∈ l, AvrSys.Ok mv := fun mv h => hl mv (List.mem_cons_of_mem _ h)
    obtain ⟨y1, hd, h1, hr'⟩ := run_does h hl' (hl _ (List.mem_cons_self ..)) hr
    exact run_hist l h1 hl' (does_hist hd hh) hr'

/-- What the firmware is behind any history of the whole example is what it is within a pass behind a history of passes, with the same persistent memory at first. -/
theorem C111_firmware (l : List Move) (hl : ∀ mv ∈ l, AvrSys.Ok mv) (ps : Nat → U8) (ctl : CanDrv.State) {y : State} (hr : run s a l (boot s [] 0 ps ctl) = .ok y) :
    ∃ l', (∀ m ∈ l', AvrProps.MoveOk m) ∧ Within s (Avr.run s l' (Avr.boot s [] 0 ps)) y.fw y.pc :=
  run_hist l (boot_inv ..) hl ⟨[], by simp, rfl⟩ hr

/-- No history leads to undefined behaviour. -/
theorem C111_defined (l : List Move) (hl : ∀ mv ∈ l, AvrSys.Ok mv) (ps : Nat → U8) (ctl : CanDrv.State) : run s a l (boot s [] 0 ps ctl) ≠ .ub := by
  rcases run_inv (a := a) l (boot_inv [] 0 ps ctl) hl with e | ⟨y, e, -⟩ <;> rw [e] <;> exact fun h => (by cases h)

/-! ### Lives -/

theorem does_life {y y' : State} {mv : Move} (hd : Does s a y mv y') : y'.fw.life = y.fw.life ∨ (y'.fw.life = y.fw.life + 1 ∧ ∃ past ps ctl, y' = boot s past y'.fw.life ps ctl) := by
  cases hd with
  | reset m ctl hpc hm hr => exact .inr ⟨rfl, _, _, _, rfl⟩
  | power => exact .inr ⟨rfl, _, _, _, rfl⟩
  | due x sw hpc hz hsw hc =>
    exact .inl (later_life y.fw)
  | _ => exact .inl rfl

theorem run_lives : ∀ (l : List Move) {y y' : State}, Inv s y → (∀ mv ∈ l, AvrSys.Ok mv) → run s a l y = .ok y' →
    y.fw.life ≤ y'.fw.life ∧ (y.fw.life < y'.fw.life → ∃ l1 l2 past ps ctl, l = l1 ++ l2 ∧ run s a l2 (boot s past y'.fw.life ps ctl) = .ok y')
  | [], y, y', _, _, hr => by cases hr; exact ⟨Nat.le_refl _, fun h => absurd h (Nat.lt_irrefl _)⟩
  | mv :: l, y, y', h, hl, hr => by
    have hl' : ∀ mv ∈ l, AvrSys.Ok mv := fun mv h => hl mv (List.mem_cons_of_mem _ h)
    obtain ⟨y1, hd, h1, hr'⟩ := run_does h hl' (hl _ (List.mem_cons_self ..)) hr
    obtain ⟨i1, i2⟩ := run_lives l h1 hl' hr'
    rcases does_life hd with e | ⟨e, past, ps, ctl, e'⟩
    · refine ⟨by omega, fun hlt => ?_⟩
      obtain ⟨l1, l2, past, ps, ctl, rfl, e2⟩ := i2 (by omega)
      exact ⟨mv :: l1, l2, past, ps, ctl, rfl, e2⟩
    · refine ⟨by omega, fun hlt => ?_⟩
      by_cases hlt' : y1.fw.life < y'.fw.life
      · obtain ⟨l1, l2, past, ps, ctl, rfl, e2⟩ := i2 hlt'
        exact ⟨mv :: l1, l2, past, ps, ctl, rfl, e2⟩
      · refine ⟨[mv], l, past, ps, ctl, rfl, ?_⟩
        rw [show y'.fw.life = y1.fw.life by omega, ← e']
        exact hr'

/-- The state is the result of what happened since the last start. -/
theorem C111_lives (l : List Move) (hl : ∀ mv ∈ l, AvrSys.Ok mv) (ps : Nat → U8) (ctl : CanDrv.State) {y : State} (hr : run s a l (boot s [] 0 ps ctl) = .ok y) :
    ∃ l1 l2 past ps' ctl', l = l1 ++ l2 ∧ run s a l2 (boot s past y.fw.life ps' ctl') = .ok y := by
  obtain ⟨-, h⟩ := run_lives l (boot_inv [] 0 ps ctl) hl hr
  by_cases hz : 0 < y.fw.life
  · exact h hz
  · exact ⟨[], l, [], ps, ctl, rfl, by rw [show y.fw.life = 0 by omega]; exact hr⟩

/-! ### Node on the bus, button and time in one life -/

/-- Steps until the main loop has asked the framework. -/
def dist : Pc → Nat
  | .process => 1 | .periodic => 2 | .remember => 3 | .check => 4

/-- Steps until the main loop has looked at the software timer. -/
def need : Pc → Nat
  | .process => 4 | .check => 3 | .remember => 2 | .periodic => 1

def btnPc : Pc → Button.Pc
  | .remember => .remember
  | _ => .check

/-- The part of the state which concerns the button. -/
def btn (y : State) : Button.State := ⟨y.cnt, y.pressed, y.fw.last, btnPc y.pc⟩

/-- An expired software timer is noticed before the next millisecond. -/
def InTime (y : State) (l : List Move) : Prop := Fast l ∧ (rest y = 0 → need y.pc ≤ stepsNow l)

theorem told_append (l l' : List CanNode.Move) : told (l ++ l') = told l + told l' := by
  induction l with
  | nil => simp [told]
  | cons mv l ih =>
    cases mv with
    | call op => cases op <;> simp [told, ih, Nat.add_assoc]
    | _ => simpa [told] using ih

theorem starts_append (l l' : List CanNode.Move) : starts (l ++ l') = starts l + starts l' := by
  induction l with
  | nil => simp [starts]
  | cons mv l ih =>
    cases mv with
    | call op => cases op <;> simp [starts, ih] <;> omega
    | _ => simpa [starts] using ih

theorem canOffered_append (l l' : List CanNode.Move) : Spec.CanNode.offered (l ++ l') = Spec.CanNode.offered l ++ Spec.CanNode.offered l' := by
  induction l with
  | nil => rfl
  | cons mv l ih => cases mv <;> simp [Spec.CanNode.offered, ih]

theorem seen_append (l l' : List Button.Ev) : seen (l ++ l') = seen l ++ seen l' := by
  induction l with
  | nil => rfl
  | cons mv l ih => cases mv <;> simp [seen, ih]

theorem elapsed_told (l : List CanNode.Move) : ∀ rs, elapsed (Spec.CanNode.callsOf l rs) = told l := by
  induction l with
  | nil => intro rs; rfl
  | cons mv l ih =>
    intro rs
    cases mv with
    | call op => cases op <;> simp [Spec.CanNode.callsOf, elapsed, told, ih]
    | _ => simp [Spec.CanNode.callsOf, elapsed, told, ih]

/-- What a piece of history in one life is for the node on the bus (`lc`), for the button (`lb`, `evs`) and for the clock (`k` periods). -/
structure Parts (s : Surr) (a : Nat → Around) (l : List Move) (y y' : State) (lc : List CanNode.Move) (lb : List Button.Move) (evs : List Button.Ev) (k : Nat) : Prop where
  ok : ∀ mv ∈ lc, Spec.CanNode.Ok mv
  calls : ∀ op, .call op ∈ lc → op = .startNodeSegmentInit ∨ op = .tick 250
  bus : CanNode.run (s.ctx y.fw.life) (s.cb y.fw.life) (a y.fw.life) lc (node y) = .ok (node y')
  offered : Spec.CanNode.offered lc = AvrSys.offered l
  button : Button.run Button.isrAvr lb (btn y) = (btn y', evs)
  seen : AvrSys.seen evs = AvrSys.button l
  starts : AvrSys.starts lc = evs.count .segInit
  told : AvrSys.told lc = 250 * k
  clk : y'.clk = Nat.repeat (Clock.process (MainLoop.PERIOD.setWidth 16)) k y.clk
  time : 250 * k + rest y ≤ ticks l + rest y'

theorem Parts.nil (y : State) : Parts s a [] y y [] [] [] 0 := by
  constructor <;> first | (intro x h; cases h; done) | rfl | (simp [ticks]; done)

theorem ticks_append (l l' : List Move) : ticks (l ++ l') = ticks l + ticks l' := by
  induction l with
  | nil => simp [ticks]
  | cons mv l ih => cases mv <;> simp [ticks, ih] <;> omega

theorem offered_append (l l' : List Move) : AvrSys.offered (l ++ l') = AvrSys.offered l ++ AvrSys.offered l' := by
  induction l with
  | nil => rfl
  | cons mv l ih => cases mv <;> simp [AvrSys.offered, ih]

theorem button_append (l l' : List Move) : AvrSys.button (l ++ l') = AvrSys.button l ++ AvrSys.button l' := by
  induction l with
  | nil => rfl
  | cons mv l ih => cases mv <;> simp [AvrSys.button, ih]

theorem repeat_add {α : Type} (f : α → α) (j k : Nat) (x : α) : Nat.repeat f (j + k) x = Nat.repeat f k (Nat.repeat f j x) := by
  induction k with
  | zero => rfl
  | succ k ih => rw [← Nat.add_assoc, Nat.repeat, ih]; rfl

theorem Parts.append {l l' : List Move} {y y1 y2 : State} {lc lc' : List CanNode.Move} {lb lb' : List Button.Move} {evs evs' : List Button.Ev} {k k' : Nat}
    (h : Parts s a l y y1 lc lb evs k) (he : y1.fw.life = y.fw.life) (h' : Parts s a l' y1 y2 lc' lb' evs' k') :
    Parts s a (l ++ l') y y2 (lc ++ lc') (lb ++ lb') (evs ++ evs') (k + k') where
  ok mv hm := (List.mem_append.1 hm).elim (h.ok mv) (h'.ok mv)
  calls op hm := (List.mem_append.1 hm).elim (h.calls op) (h'.calls op)
  bus := by rw [CanConfig.run_append, h.bus]; dsimp only; rw [← he]; exact h'.bus
  offered := by rw [canOffered_append, offered_append, h.offered, h'.offered]
  button := by rw [MainProps.btn_append, h.button]; dsimp only; rw [h'.button]
  seen := by rw [seen_append, button_append, h.seen, h'.seen]
  starts := by rw [starts_append, List.count_append, h.starts, h'.starts]
  told := by rw [told_append, h.told, h'.told]; omega
  clk := by rw [repeat_add, ← h.clk, h'.clk]
  time := by have := h.time; have := h'.time; rw [ticks_append]; omega

/-- One move. -/
theorem does_parts {y y' : State} {mv : Move} (hi : Inv s y) (hm : AvrSys.Ok mv) (hd : Does s a y mv y') (he : y'.fw.life = y.fw.life) : ∃ lc lb evs k, Parts s a [mv] y y' lc lb evs k ∧
    (∀ l j u, (u = true → dist y.pc ≤ j) → Paced j (mv :: l) → ∃ j' u', (u' = true → dist y'.pc ≤ j') ∧ Paced j' l ∧
      ∀ lc', Spec.CanNode.Paced u' lc' → Spec.CanNode.Paced u (lc ++ lc')) ∧
    (∀ l, InTime y (mv :: l) → InTime y' l ∧ 250 * k + rest y = ticks [mv] + rest y') := by
  have run1 : ∀ {c cb a' n n' cm}, CanNode.move c cb a' n cm = .ok n' → CanNode.run c cb a' [cm] n = .ok n' := by
    intro c cb a' n n' cm e
    simp only [CanNode.run, e]
  cases hd with
  | tick b =>
    refine ⟨[], [.tick b], [.tick b], 0, ?_, ?_, ?_⟩
    · refine ⟨?_, ?_, rfl, rfl, ?_, rfl, rfl, rfl, rfl, ?_⟩
      · intro x h; cases h
      · intro x h; cases h
      · simp only [Button.run, Button.move, btn, timerCb]
        unfold Button.isrAvr
        (repeat' split) <;> rfl
      · have := (sw_tick hi.sw).2
        simp only [ticks, rest, timerCb] at this ⊢
        omega
    · exact fun l j u h1 h2 => ⟨j, u, h1, h2, fun lc' h => h⟩
    · rintro l ⟨⟨h1, h2⟩, h3⟩
      have := (sw_tick hi.sw).2
      have hpos : 0 < need y.pc := by cases y.pc <;> decide
      have hr : rest y ≠ 0 := fun h => by have := h3 h; simp only [stepsNow] at this; omega
      have e : rest (timerCb b y) = rest y - 1 := this
      refine ⟨⟨h2, fun _ => ?_⟩, by simp only [ticks]; omega⟩
      have : need y.pc ≤ 4 := by cases y.pc <;> decide
      exact Nat.le_trans this h1
  | power => exact absurd he (by show ¬ (y.fw.life + 1 = y.fw.life); omega)
  | reset m ctl hpc hm' hr => exact absurd he (by show ¬ (y.fw.life + 1 = y.fw.life); omega)
  | rx b x hc =>
    refine ⟨[.rx b], [], [], 0, ⟨?_, ?_, run1 hc, rfl, rfl, rfl, rfl, rfl, rfl, ?_⟩, ?_, ?_⟩
    · intro mv h; rw [List.mem_singleton.1 h]; exact hm
    · intro op h; simp at h
    · simp [ticks, rest]
    · rintro l j u h1 ⟨rfl, h2⟩
      refine ⟨4, true, fun _ => by show dist y.pc ≤ 4; cases y.pc <;> decide, h2, fun lc' h => ⟨?_, h⟩⟩
      cases u with
      | false => rfl
      | true => exact absurd (h1 rfl) (by cases y.pc <;> decide)
    · rintro l ⟨h1, h2⟩
      exact ⟨⟨h1, h2⟩, by simp [ticks, rest]⟩
  | tx x hc =>
    refine ⟨[.tx], [], [], 0, ⟨?_, ?_, run1 hc, rfl, rfl, rfl, rfl, rfl, rfl, ?_⟩, ?_, ?_⟩
    · intro mv h; rw [List.mem_singleton.1 h]; trivial
    · intro op h; simp at h
    · simp [ticks, rest]
    · exact fun l j u h1 h2 => ⟨j, u, h1, h2, fun lc' h => h⟩
    · rintro l ⟨h1, h2⟩
      exact ⟨⟨h1, h2⟩, by simp [ticks, rest]⟩
  | cycle m x hpc hm' hr hc =>
    refine ⟨[.cycle], [], [], 0, ⟨?_, ?_, run1 hc, rfl, ?_, rfl, rfl, rfl, rfl, ?_⟩, ?_, ?_⟩
    · intro mv h; rw [List.mem_singleton.1 h]; trivial
    · intro op h; simp at h
    · simp only [Button.run, btn, hpc, btnPc, call_last']
    · simp [ticks, rest]
    · exact fun l j u h1 h2 => ⟨j - 1, false, fun h => (by cases h), h2, fun lc' h => h⟩
    · rintro l ⟨h1, h2⟩
      refine ⟨⟨h1, fun h => ?_⟩, by simp [ticks, rest]⟩
      have := h2 h
      simp only [stepsNow, hpc, need] at this ⊢
      omega
  | segInit x hpc hp hl hc =>
    refine ⟨[.call .startNodeSegmentInit], [.step], [.segInit], 0, ⟨?_, ?_, run1 hc, rfl, ?_, rfl, rfl, rfl, rfl, ?_⟩, ?_, ?_⟩
    · intro mv h; rw [List.mem_singleton.1 h]; exact .inl trivial
    · intro op h; simp only [List.mem_singleton, CanNode.Move.call.injEq] at h; exact .inl h
    · simp only [Button.run, Button.move, Button.step, btn, hpc, btnPc, call_last', hp, hl]
      rfl
    · simp [ticks, rest]
    · intro l j u h1 h2
      refine ⟨j - 1, u, fun h => ?_, h2, fun lc' h => h⟩
      have := h1 h
      simp only [hpc, dist] at this ⊢
      omega
    · rintro l ⟨h1, h2⟩
      refine ⟨⟨h1, fun h => ?_⟩, by simp [ticks, rest]⟩
      have := h2 h
      simp only [stepsNow, hpc, need] at this ⊢
      omega
  | quiet hpc hp =>
    refine ⟨[], [.step], [], 0, ⟨?_, ?_, rfl, rfl, ?_, rfl, rfl, rfl, rfl, ?_⟩, ?_, ?_⟩
    · intro x h; cases h
    · intro x h; cases h
    · simp only [Button.run, Button.move, Button.step, btn, hpc, btnPc, hp]
      rfl
    · simp [ticks, rest]
    · intro l j u h1 h2
      refine ⟨j - 1, u, fun h => ?_, h2, fun lc' h => h⟩
      have := h1 h
      simp only [hpc, dist] at this ⊢
      omega
    · rintro l ⟨h1, h2⟩
      refine ⟨⟨h1, fun h => ?_⟩, by simp [ticks, rest]⟩
      have := h2 h
      simp only [stepsNow, hpc, need] at this ⊢
      omega
  | remember hpc =>
    refine ⟨[], [.step], [], 0, ⟨?_, ?_, rfl, rfl, ?_, rfl, rfl, rfl, rfl, ?_⟩, ?_, ?_⟩
    · intro x h; cases h
    · intro x h; cases h
    · simp only [Button.run, Button.move, Button.step, btn, hpc, btnPc, stepRemember]
      rfl
    · simp [ticks, rest, stepRemember]
    · intro l j u h1 h2
      refine ⟨j - 1, u, fun h => ?_, h2, fun lc' h => h⟩
      have := h1 h
      simp only [hpc, dist, stepRemember] at this ⊢
      omega
    · rintro l ⟨h1, h2⟩
      refine ⟨⟨h1, fun h => ?_⟩, by simp [ticks, rest, stepRemember]⟩
      have := h2 h
      simp only [stepsNow, hpc, need, stepRemember] at this ⊢
      omega
  | due x sw hpc hz hsw hc =>
    refine ⟨[.call (.tick 250)], [], [], 1, ⟨?_, ?_, run1 hc, rfl, ?_, rfl, rfl, rfl, rfl, ?_⟩, ?_, ?_⟩
    · intro mv h; rw [List.mem_singleton.1 h]; exact .inr ⟨_, rfl⟩
    · intro op h; simp only [List.mem_singleton, CanNode.Move.call.injEq] at h; exact .inr h
    · simp only [Button.run, btn, hpc, btnPc, later_last]
    · simp only [ticks, rest] at hz ⊢; omega
    · intro l j u h1 h2
      refine ⟨j - 1, u, fun h => ?_, h2, fun lc' h => h⟩
      have := h1 h
      simp only [hpc, dist] at this ⊢
      omega
    · rintro l ⟨h1, h2⟩
      refine ⟨⟨h1, fun h => ?_⟩, ?_⟩
      · have : sw[1].value.toNat = 0 := h
        omega
      · simp only [ticks, rest] at hz ⊢; omega
  | notDue hpc hz =>
    refine ⟨[], [], [], 0, ⟨?_, ?_, rfl, rfl, ?_, rfl, rfl, rfl, rfl, ?_⟩, ?_, ?_⟩
    · intro x h; cases h
    · intro x h; cases h
    · simp only [Button.run, btn, hpc, btnPc]
    · simp [ticks, rest]
    · intro l j u h1 h2
      refine ⟨j - 1, u, fun h => ?_, h2, fun lc' h => h⟩
      have := h1 h
      simp only [hpc, dist] at this ⊢
      omega
    · rintro l ⟨h1, h2⟩
      refine ⟨⟨h1, fun h => ?_⟩, by simp [ticks, rest]⟩
      have : rest y = 0 := h
      omega

theorem run_parts : ∀ (l : List Move) {y y' : State}, Inv s y → (∀ mv ∈ l, AvrSys.Ok mv) → run s a l y = .ok y' → y'.fw.life = y.fw.life →
    ∃ lc lb evs k, Parts s a l y y' lc lb evs k ∧ (∀ j u, (u = true → dist y.pc ≤ j) → Paced j l → Spec.CanNode.Paced u lc) ∧
      (InTime y l → 250 * k + rest y = ticks l + rest y' ∧ rest y' ≠ 0)
  | [], y, y', _, _, hr, _ => by
    cases hr
    refine ⟨[], [], [], 0, .nil y, fun _ _ _ _ => trivial, fun h => ⟨by simp [ticks], fun h' => ?_⟩⟩
    have := h.2 h'
    have hpos : 0 < need y.pc := by cases y.pc <;> decide
    simp only [stepsNow] at this
    omega
  | mv :: l, y, y', h, hl, hr, he => by
    have hl' : ∀ mv ∈ l, AvrSys.Ok mv := fun mv h => hl mv (List.mem_cons_of_mem _ h)
    have hmv := hl _ (List.mem_cons_self ..)
    obtain ⟨y1, hd, h1, hr'⟩ := run_does h hl' hmv hr
    have he1 : y1.fw.life = y.fw.life := by
      have := (run_lives l h1 hl' hr').1
      rcases does_life hd with e | ⟨e, -⟩ <;> omega
    obtain ⟨lc, lb, evs, k, p1, p2, p3⟩ := does_parts h hmv hd he1
    obtain ⟨lc', lb', evs', k', q1, q2, q3⟩ := run_parts l h1 hl' hr' (he.trans he1.symm)
    refine ⟨_, _, _, _, p1.append he1 q1, ?_, ?_⟩
    · intro j u hu hp
      obtain ⟨j', u', r1, r2, r3⟩ := p2 l j u hu hp
      exact r3 _ (q2 j' u' r1 r2)
    · intro ht
      obtain ⟨r1, r2⟩ := p3 l ht
      obtain ⟨r3, r4⟩ := q3 r1
      refine ⟨?_, r4⟩
      have : ticks (mv :: l) = ticks [mv] + ticks l := ticks_append [mv] l
      omega

/-! ### One life -/

theorem held_seen : ∀ (t : List Button.Ev) (k : Nat) (p0 : List Bool), (∃ p, p0 = p ++ List.replicate k true) →
    ∃ p, p0 ++ seen t = p ++ List.replicate (t.foldl heldStep k) true
  | [], k, p0, h => by simpa [seen] using h
  | .tick true :: t, k, p0, ⟨p, h⟩ => by
    obtain ⟨p', h'⟩ := held_seen t (k + 1) (p0 ++ [true]) ⟨p, by rw [h, List.replicate_succ', List.append_assoc]⟩
    exact ⟨p', by rw [List.append_assoc] at h'; exact h'⟩
  | .tick false :: t, k, p0, _ => by
    obtain ⟨p', h'⟩ := held_seen t 0 (p0 ++ [false]) ⟨p0 ++ [false], by simp⟩
    exact ⟨p', by rw [List.append_assoc] at h'; exact h'⟩
  | .segInit :: t, k, p0, h => held_seen t k p0 h

theorem seg_held {lb : List Button.Move} (h : .segInit ∈ (Button.run Button.isrAvr lb Button.init).2) :
    ∃ p q, seen (Button.run Button.isrAvr lb Button.init).2 = p ++ List.replicate 101 true ++ q := by
  obtain ⟨t, t', e⟩ := List.append_of_mem h
  have hh := MainProps.C77_only lb t t' e
  obtain ⟨p, hp⟩ := held_seen t 0 [] ⟨[], rfl⟩
  rw [List.nil_append] at hp
  rw [e, seen_append, hp]
  refine ⟨p ++ List.replicate (held t - 101) true, seen t', ?_⟩
  show p ++ List.replicate (held t) true ++ seen t' = _
  rw [show held t = (held t - 101) + 101 by omega, ← List.replicate_append_replicate]
  simp [List.append_assoc]

theorem btn_boot (past : List Out) (n : Nat) (ps : Nat → U8) (ctl : CanDrv.State) : btn (boot s past n ps ctl) = Button.init := rfl

theorem rest_boot (past : List Out) (n : Nat) (ps : Nat → U8) (ctl : CanDrv.State) : rest (boot s past n ps ctl) = 250 := sw_init.2

theorem node_boot (past : List Out) (n : Nat) (ps : Nat → U8) (ctl : CanDrv.State) :
    node (boot s past n ps ctl) = CanNode.boot (s.ctx n) (s.cb n) allOk ps ctl := rfl

/-- The node on the bus of the current life. -/
def Reach (s : Surr) (a : Nat → Around) (y : State) : Prop := ∃ ps ctl lc, (∀ mv ∈ lc, Spec.CanNode.Ok mv) ∧ (∀ op, .call op ∈ lc → op = .startNodeSegmentInit ∨ op = .tick 250) ∧
    CanNode.run (s.ctx y.fw.life) (s.cb y.fw.life) (a y.fw.life) lc (CanNode.boot (s.ctx y.fw.life) (s.cb y.fw.life) allOk ps ctl) = .ok (node y)

section
variable {past : List Out} {n : Nat} {ps : Nat → U8} {ctl : CanDrv.State} {l : List Move} (hl : ∀ mv ∈ l, AvrSys.Ok mv) {y : State}
  (hr : run s a l (boot s past n ps ctl) = .ok y) (hn : y.fw.life = n)
include hl hr hn

/-- C111: between two starts the example is the node on the CAN bus of C105 and C110, with the same frames of other nodes, and the button of C77, with the same states of the button: the framework is told to
initialise the segment exactly as often as the button says so, and not at all if the button is never pressed for more than 100 ms.  If the main loop runs once between two frames, the framework gets a cycle between them. -/
theorem C111_bus : ∃ lc lb evs, (∀ mv ∈ lc, Spec.CanNode.Ok mv) ∧ (∀ op, .call op ∈ lc → op = .startNodeSegmentInit ∨ op = .tick 250) ∧
    CanNode.run (s.ctx n) (s.cb n) (a n) lc (CanNode.boot (s.ctx n) (s.cb n) allOk ps ctl) = .ok ⟨y.fw.w, y.x, y.heard⟩ ∧
    Spec.CanNode.offered lc = AvrSys.offered l ∧ (Paced 0 l → Spec.CanNode.Paced false lc) ∧
    (Button.run Button.isrAvr lb Button.init).2 = evs ∧ seen evs = AvrSys.button l ∧ starts lc = evs.count .segInit ∧
    (¬ Held l → ∀ op, .call op ∈ lc → op = .tick 250) := by
  obtain ⟨lc, lb, evs, k, p, hp, -⟩ := run_parts l (boot_inv past n ps ctl) hl hr hn
  refine ⟨lc, lb, evs, p.ok, p.calls, ?_, p.offered, fun h => hp 0 false (fun h => (by cases h)) h, ?_, p.seen, p.starts, ?_⟩
  · have := p.bus
    rw [node_boot] at this
    exact this
  · rw [← btn_boot (s := s) past n ps ctl, p.button]
  · intro hh op hop
    refine (p.calls op hop).resolve_left fun e => hh ?_
    subst e
    have hb : (Button.run Button.isrAvr lb Button.init).2 = evs := by rw [← btn_boot (s := s) past n ps ctl, p.button]
    have h0 : 0 < starts lc := by
      obtain ⟨l1, l2, e⟩ := List.append_of_mem hop
      rw [e, starts_append]
      simp only [starts]
      omega
    have hm : .segInit ∈ (Button.run Button.isrAvr lb Button.init).2 := by
      rw [hb]
      rw [p.starts] at h0
      exact List.count_pos_iff.1 h0
    obtain ⟨q1, q2, e⟩ := seg_held hm
    rw [hb, p.seen] at e
    exact ⟨q1, q2, e⟩

theorem reach : Reach s a y := by
  obtain ⟨lc, lb, evs, k, p, -, -⟩ := run_parts l (boot_inv past n ps ctl) hl hr hn
  have := p.bus
  rw [node_boot] at this
  subst hn
  exact ⟨ps, ctl, lc, p.ok, p.calls, this⟩

/-- C112: what the framework is told about time, and what the clock shows, is the time which has passed, in steps of 250 ms: it is never early, and late by less than 250 ms if the main loop runs once in each
millisecond.  (The clock starts again after 256 days.) -/
theorem C112_time : ∃ ops, y.fw.w = runOpsC (s.ctx n) (s.cb n) (.init allOk :: ops) (powerUp ps) ∧ (∀ op ∈ ops, op.Ok) ∧
    ClockProps.shown y.clk = elapsed ops % (256 * 86400000) ∧ elapsed ops ≤ ticks l ∧ (Fast l → ticks l < elapsed ops + 250) := by
  have hi := inv_of (boot_inv past n ps ctl) hl hr
  obtain ⟨lc, lb, evs, k, p, -, ht⟩ := run_parts l (boot_inv past n ps ctl) hl hr hn
  have hb := p.bus
  rw [node_boot] at hb
  obtain ⟨rs, -, -, h3, h4⟩ := CanNode.C105_history (AvrProps.good s.sz (s.env n)) (AvrProps.cb_ok _) (a n) allOk ps ctl lc p.ok hb
  have he : elapsed (Spec.CanNode.callsOf lc rs) = 250 * k := by
    rw [← p.told]
    exact elapsed_told lc rs
  have hrest := rest_boot (s := s) past n ps ctl
  have hle := hi.sw.le
  refine ⟨_, h3, h4, ?_, ?_, ?_⟩
  · rw [he, p.clk, Nat.mul_comm]
    exact ClockProps.C61_keeps_partial _ (by decide) k
  · have := p.time
    rw [hrest] at this
    have : rest y ≤ 250 := hle
    omega
  · intro hf
    obtain ⟨h1, h2⟩ := ht ⟨hf, fun h => (by rw [hrest] at h; cases h)⟩
    omega

end

/-! ### Pieces of a life -/

theorem run_inTime : ∀ (l l' : List Move) {y y' : State}, Inv s y → (∀ mv ∈ l, AvrSys.Ok mv) → run s a l y = .ok y' → y'.fw.life = y.fw.life → InTime y (l ++ l') → InTime y' l'
  | [], l', y, y', _, _, hr, _, h => by cases hr; exact h
  | mv :: l, l', y, y', hi, hl, hr, he, h => by
    have hl' : ∀ mv ∈ l, AvrSys.Ok mv := fun mv h => hl mv (List.mem_cons_of_mem _ h)
    have hmv := hl _ (List.mem_cons_self ..)
    obtain ⟨y1, hd, h1, hr'⟩ := run_does hi hl' hmv hr
    have he1 : y1.fw.life = y.fw.life := by
      have := (run_lives l h1 hl' hr').1
      rcases does_life hd with e | ⟨e, -⟩ <;> omega
    obtain ⟨lc, lb, evs, k, -, -, p3⟩ := does_parts hi hmv hd he1
    exact run_inTime l l' h1 hl' hr' (he.trans he1.symm) (p3 _ h).1

/-- The calls of the main loop. -/
def Plain (op : Op) : Prop := op = .startNodeSegmentInit ∨ op = .tick 250 ∨ ∃ rx, op = .process rx

theorem plain_calls : ∀ (lc : List CanNode.Move) (rs : List (Option Msg)), (∀ op, .call op ∈ lc → op = .startNodeSegmentInit ∨ op = .tick 250) → ∀ op ∈ Spec.CanNode.callsOf lc rs, Plain op
  | [], _, _, _, h => by cases h
  | mv :: lc, rs, hc, op, h => by
    have hc' : ∀ op, .call op ∈ lc → op = .startNodeSegmentInit ∨ op = .tick 250 := fun op h => hc op (List.mem_cons_of_mem _ h)
    cases mv with
    | cycle =>
      rcases List.mem_cons.1 h with rfl | h
      · exact .inr (.inr ⟨_, rfl⟩)
      · exact plain_calls lc _ hc' op h
    | call op' =>
      rcases List.mem_cons.1 h with rfl | h
      · rcases hc op (List.mem_cons_self ..) with h | h
        · exact .inl h
        · exact .inr (.inl h)
      · exact plain_calls lc _ hc' op h
    | rx b => exact plain_calls lc _ hc' op h
    | tx => exact plain_calls lc _ hc' op h

section
variable {past : List Out} {n : Nat} {ps : Nat → U8} {ctl : CanDrv.State} {l l' : List Move} (hl : ∀ mv ∈ l ++ l', AvrSys.Ok mv) {y y' : State}
  (hr : run s a l (boot s past n ps ctl) = .ok y) (hr' : run s a l' y = .ok y') (hn : y'.fw.life = n)
include hl hr hr' hn

theorem lives_eq : y.fw.life = n := by
  have h1 := (run_lives l (boot_inv past n ps ctl) (fun mv h => hl mv (List.mem_append_left _ h)) hr).1
  have h2 := (run_lives l' (inv_of (boot_inv past n ps ctl) (fun mv h => hl mv (List.mem_append_left _ h)) hr) (fun mv h => hl mv (List.mem_append_right _ h)) hr').1
  have : (boot s past n ps ctl).fw.life = n := rfl
  omega

/-- C112: the same for a piece of history between two starts: what the framework is told differs from the time which passes by at most 250 ms; the upper bound holds always, the lower one if the main loop runs once
in each millisecond. -/
theorem C112_span : ∃ ops, y'.fw.w = runOpsC (s.ctx n) (s.cb n) ops y.fw.w ∧ (∀ op ∈ ops, op.Ok ∧ Plain op) ∧
    elapsed ops ≤ ticks l' + 250 ∧ (Fast (l ++ l') → ticks l' < elapsed ops + 250) := by
  have h1 := lives_eq hl hr hr' hn
  have hl1 : ∀ mv ∈ l, AvrSys.Ok mv := fun mv h => hl mv (List.mem_append_left _ h)
  have hl2 : ∀ mv ∈ l', AvrSys.Ok mv := fun mv h => hl mv (List.mem_append_right _ h)
  have hi := inv_of (boot_inv past n ps ctl) hl1 hr
  have hi' := inv_of hi hl2 hr'
  obtain ⟨lc, lb, evs, k, p, -, ht⟩ := run_parts l' hi hl2 hr' (hn.trans h1.symm)
  have hb := p.bus
  rw [h1] at hb
  have hg := hi.good
  rw [h1] at hg
  obtain ⟨rs, -, -, h3, h4⟩ := CanNode.run_calls (AvrProps.good s.sz (s.env n)) (AvrProps.cb_ok _) (a n) lc hg p.ok hb
  have he : elapsed (Spec.CanNode.callsOf lc rs) = 250 * k := (elapsed_told lc rs).trans p.told
  have hle : rest y ≤ 250 := hi.sw.le
  have hle' : rest y' ≤ 250 := hi'.sw.le
  refine ⟨_, h3, fun op hop => ⟨h4 op hop, plain_calls lc rs p.calls op hop⟩, ?_, ?_⟩
  · have := p.time
    omega
  · intro hf
    have hint := run_inTime l l' (boot_inv past n ps ctl) hl1 hr h1 ⟨hf, fun h => (by rw [rest_boot] at h; cases h)⟩
    obtain ⟨r1, r2⟩ := ht hint
    omega

end

/-! ### The wait for a reset -/

open AvrProps (Waits left)

/-- The node waits for a reset. -/
structure WaitInv (y : State) : Prop where
  waits : Waits y.fw.w
  unpressed : y.pressed = false
  rem : y.pc ≠ .process → left y.fw.w ≠ 0 → 0 < (y.fw.w.tm.rem .main).toNat

/-- The milliseconds until the last period of the wait has elapsed. -/
def remains (y : State) : Nat := if left y.fw.w = 0 then 0 else 250 * (left y.fw.w - 1) + rest y

def steps : List Move → Nat
  | [] => 0
  | .step :: l => steps l + 1
  | _ :: l => steps l

theorem stepsNow_le : ∀ l : List Move, stepsNow l ≤ steps l
  | [] => Nat.le_refl _
  | .step :: l => Nat.succ_le_succ (stepsNow_le l)
  | .tick _ :: l => Nat.zero_le _
  | .rx _ :: l => stepsNow_le l
  | .tx :: l => stepsNow_le l
  | .power :: l => stepsNow_le l

theorem wait_does {y y1 : State} {mv : Move} (hi : Inv s y) (h : WaitInv y) (hm : Alone mv) (hd : Does s a y mv y1) :
    (left y.fw.w = 0 ∧ y.pc = .process ∧ mv = .step ∧ ∃ ctl, y1 = boot s (y.fw.past ++ (y.fw.w.out ++ [.resetRequest])) (y.fw.life + 1) y.fw.w.ps ctl) ∨
    (y1.fw.life = y.fw.life ∧ y1.fw.w.out = y.fw.w.out ∧ y1.fw.w.ps = y.fw.w.ps ∧ WaitInv y1 ∧
      250 * left y.fw.w + rest y ≤ ticks [mv] + 250 * left y1.fw.w + rest y1 ∧
      (left y.fw.w = 0 → left y1.fw.w = 0 ∧ (mv = .step → dist y.pc = dist y1.pc + 1) ∧ (mv ≠ .step → y1.pc = y.pc)) ∧
      (left y.fw.w ≠ 0 → ∀ l, InTime y (mv :: l) → remains y = ticks [mv] + remains y1)) := by
  obtain ⟨hw, hp, hrem⟩ := h
  have same : ∀ (x : CanNode.Drv) (pc : Pc), pc ≠ .process → y.pc ≠ .process →
      WaitInv { y with x, pc } := fun x pc _ h2 => ⟨hw, hp, fun _ => hrem h2⟩
  cases hd with
  | tick b =>
    right
    have hb : b = false := hm
    subst hb
    have hv := (sw_tick hi.sw).2
    have e : rest (timerCb false y) = rest y - 1 := hv
    refine ⟨rfl, rfl, rfl, ⟨hw, ?_, hrem⟩, ?_, ?_, ?_⟩
    · simp only [timerCb, Button.isrAvr, if_true]
    · show 250 * left y.fw.w + rest y ≤ 1 + 250 * left y.fw.w + _
      rw [e]
      omega
    · exact fun h => ⟨h, fun h => (by cases h), fun _ => rfl⟩
    · rintro h0 l ⟨-, h2⟩
      have hpos : 0 < need y.pc := by cases y.pc <;> decide
      have hr : rest y ≠ 0 := fun h => by have := h2 h; simp only [stepsNow] at this; omega
      show remains y = 1 + if left y.fw.w = 0 then 0 else 250 * (left y.fw.w - 1) + rest (timerCb false y)
      unfold remains
      rw [if_neg h0, if_neg h0, e]
      omega
  | power => exact absurd hm id
  | rx b x hc =>
    exact .inr ⟨rfl, rfl, rfl, ⟨hw, hp, hrem⟩, by show _ ≤ 0 + 250 * left y.fw.w + rest y; omega, fun h => ⟨h, fun h => (by cases h), fun _ => rfl⟩,
      fun _ _ _ => by show remains y = 0 + remains y; omega⟩
  | tx x hc =>
    exact .inr ⟨rfl, rfl, rfl, ⟨hw, hp, hrem⟩, by show _ ≤ 0 + 250 * left y.fw.w + rest y; omega, fun h => ⟨h, fun h => (by cases h), fun _ => rfl⟩,
      fun _ _ _ => by show remains y = 0 + remains y; omega⟩
  | segInit x hpc hp' hl hc => rw [hp] at hp'; cases hp'
  | quiet hpc hp' =>
    refine .inr ⟨rfl, rfl, rfl, ⟨hw, hp, fun _ => hrem (by rw [hpc]; decide)⟩, by show _ ≤ 0 + 250 * left y.fw.w + rest y; omega, fun h => ⟨h, fun _ => by rw [hpc]; rfl, fun h => absurd rfl h⟩,
      fun _ _ _ => by show remains y = 0 + remains y; omega⟩
  | remember hpc =>
    refine .inr ⟨rfl, rfl, rfl, ⟨hw, hp, fun _ => hrem (by rw [hpc]; decide)⟩, by show _ ≤ 0 + 250 * left y.fw.w + rest y; omega, fun h => ⟨h, fun _ => by rw [hpc]; rfl, fun h => absurd rfl h⟩,
      fun _ _ _ => by show remains y = 0 + remains y; omega⟩
  | notDue hpc hz =>
    refine .inr ⟨rfl, rfl, rfl, ⟨hw, hp, fun h => absurd rfl h⟩, by show _ ≤ 0 + 250 * left y.fw.w + rest y; omega, fun h => ⟨h, fun _ => by rw [hpc]; rfl, fun h => absurd rfl h⟩,
      fun _ _ _ => by show remains y = 0 + remains y; omega⟩
  | cycle m x hpc hm' hr hc =>
    have e : (Avr.call s (.process m) y.fw).w = (Core.process (s.ctx y.fw.life) m y.fw.w).2 :=
      AvrProps.calm_op (s.stack y.fw.life) (.process m) y.fw.w fun r _ => .inl (by rw [hw.st]; exact fun h => (by cases h))
    obtain ⟨h1, h2⟩ := AvrProps.wait_process (c := s.ctx y.fw.life) hw m
    rw [← e] at h1 h2
    by_cases h0 : left y.fw.w = 0
    · rw [if_pos h0] at h2
      rw [h2, List.drop_left] at hr
      exact absurd (List.mem_singleton.mpr rfl) hr
    · rw [if_neg h0] at h2
      obtain ⟨h2, h3, h4, h5⟩ := h2
      refine .inr ⟨rfl, h2, h1, ⟨h3, hp, fun _ _ => h5⟩, ?_, fun h => absurd h h0, fun _ _ _ => ?_⟩
      · show _ ≤ 0 + 250 * left (Avr.call s (.process m) y.fw).w + rest y
        rw [h4]
        omega
      · show remains y = 0 + if left (Avr.call s (.process m) y.fw).w = 0 then 0 else 250 * (left (Avr.call s (.process m) y.fw).w - 1) + rest y
        rw [h4]
        unfold remains
        omega
  | reset m ctl hpc hm' hr =>
    have e : (Avr.call s (.process m) y.fw).w = (Core.process (s.ctx y.fw.life) m y.fw.w).2 :=
      AvrProps.calm_op (s.stack y.fw.life) (.process m) y.fw.w fun r _ => .inl (by rw [hw.st]; exact fun h => (by cases h))
    obtain ⟨h1, h2⟩ := AvrProps.wait_process (c := s.ctx y.fw.life) hw m
    rw [← e] at h1 h2
    by_cases h0 : left y.fw.w = 0
    · rw [if_pos h0] at h2
      refine .inl ⟨h0, hpc, rfl, ctl, ?_⟩
      dsimp only
      rw [h2, h1]
      rfl
    · rw [if_neg h0] at h2
      rw [h2.1, List.drop_length] at hr
      cases hr
  | due x sw hpc hz hsw hc =>
    obtain ⟨k1, k2, k3, k4, -, -, k7⟩ := AvrProps.tick_call s 250 y.fw
    have e : (later s y.fw).w = (Avr.call s (.tick 250) y.fw).w := by rw [later_w, call_w]
    rw [← e] at k1 k2 k3 k4 k7
    have hr0 : left y.fw.w ≠ 0 → 0 < (y.fw.w.tm.rem .main).toNat := hrem (by rw [hpc]; decide)
    have hlft : left (later s y.fw).w = left y.fw.w - 1 := by
      unfold left at hr0 ⊢
      rw [k7, k1]
      omega
    refine .inr ⟨later_life y.fw, k3, k2, ⟨⟨by rw [k1]; exact hw.st, by rw [k1]; exact hw.req, by rw [k4]; exact hw.ok⟩, hp, fun h => absurd rfl h⟩, ?_, fun h => ⟨?_, fun _ => by rw [hpc]; rfl, fun h => absurd rfl h⟩,
      fun h0 _ _ => ?_⟩
    · show _ ≤ 0 + 250 * left (later s y.fw).w + sw[1].value.toNat
      rw [hlft]
      omega
    · show left (later s y.fw).w = 0
      omega
    · show remains y = 0 + if left (later s y.fw).w = 0 then 0 else 250 * (left (later s y.fw).w - 1) + sw[1].value.toNat
      unfold remains
      rw [if_neg h0, hlft, hsw, hz]
      split <;> omega

/-- The wait ends not too early. -/
theorem wait_early : ∀ (l : List Move) {y y' : State}, Inv s y → WaitInv y → (∀ mv ∈ l, AvrSys.Ok mv ∧ Alone mv) → run s a l y = .ok y' → y'.fw.life ≠ y.fw.life →
    250 * left y.fw.w + rest y ≤ ticks l + 250
  | [], y, y', _, _, _, hr, hne => by cases hr; exact absurd rfl hne
  | mv :: l, y, y', hi, hw, hl, hr, hne => by
    have hl' : ∀ mv ∈ l, AvrSys.Ok mv ∧ Alone mv := fun mv h => hl mv (List.mem_cons_of_mem _ h)
    have hmv := hl _ (List.mem_cons_self ..)
    have hle : rest y ≤ 250 := hi.sw.le
    obtain ⟨y1, hd, h1, hr'⟩ := run_does hi (fun mv h => (hl' mv h).1) hmv.1 hr
    have ht : ticks (mv :: l) = ticks [mv] + ticks l := ticks_append [mv] l
    rcases wait_does hi hw hmv.2 hd with ⟨h0, -⟩ | ⟨e, -, -, hw1, h2, -⟩
    · omega
    · have := wait_early l h1 hw1 hl' hr' (by rw [e]; exact hne)
      omega

/-- The wait ends in the next cycle. -/
theorem wait_over : ∀ (l : List Move) {y y' : State}, Inv s y → WaitInv y → (∀ mv ∈ l, AvrSys.Ok mv ∧ Alone mv) → run s a l y = .ok y' → y'.fw.life = y.fw.life →
    left y.fw.w = 0 → steps l < dist y.pc
  | [], y, y', _, _, _, hr, hne, _ => by cases y.pc <;> decide
  | mv :: l, y, y', hi, hw, hl, hr, he, h0 => by
    have hl' : ∀ mv ∈ l, AvrSys.Ok mv ∧ Alone mv := fun mv h => hl mv (List.mem_cons_of_mem _ h)
    have hmv := hl _ (List.mem_cons_self ..)
    obtain ⟨y1, hd, h1, hr'⟩ := run_does hi (fun mv h => (hl' mv h).1) hmv.1 hr
    rcases wait_does hi hw hmv.2 hd with ⟨-, -, -, ctl, rfl⟩ | ⟨e, -, -, hw1, -, h2, -⟩
    · have := (run_lives l h1 (fun mv h => (hl' mv h).1) hr').1
      have e1 : (boot s (y.fw.past ++ (y.fw.w.out ++ [.resetRequest])) (y.fw.life + 1) y.fw.w.ps ctl).fw.life = y.fw.life + 1 := rfl
      omega
    · obtain ⟨h3, h4, h5⟩ := h2 h0
      have := wait_over l h1 hw1 hl' hr' (by rw [he, e]) h3
      by_cases hs : mv = .step
      · subst hs
        simp only [steps, h4 rfl]
        omega
      · rw [h5 hs] at this
        cases mv <;> first | exact absurd rfl hs | exact this

/-- The wait ends not too late. -/
theorem wait_late : ∀ (l : List Move) {y y' : State}, Inv s y → WaitInv y → (∀ mv ∈ l, AvrSys.Ok mv ∧ Alone mv) → run s a l y = .ok y' → y'.fw.life = y.fw.life →
    InTime y l → ticks l ≤ remains y ∧ y'.fw.w.out = y.fw.w.out ∧ y'.fw.w.ps = y.fw.w.ps
  | [], y, y', _, _, _, hr, hne, _ => by cases hr; exact ⟨Nat.zero_le _, rfl, rfl⟩
  | mv :: l, y, y', hi, hw, hl, hr, he, ht => by
    have hl' : ∀ mv ∈ l, AvrSys.Ok mv ∧ Alone mv := fun mv h => hl mv (List.mem_cons_of_mem _ h)
    have hmv := hl _ (List.mem_cons_self ..)
    obtain ⟨y1, hd, h1, hr'⟩ := run_does hi (fun mv h => (hl' mv h).1) hmv.1 hr
    have hsum : ticks (mv :: l) = ticks [mv] + ticks l := ticks_append [mv] l
    rcases wait_does hi hw hmv.2 hd with ⟨-, -, -, ctl, rfl⟩ | ⟨e, ho, hps, hw1, -, h2, h3⟩
    · have := (run_lives l h1 (fun mv h => (hl' mv h).1) hr').1
      have e1 : (boot s (y.fw.past ++ (y.fw.w.out ++ [.resetRequest])) (y.fw.life + 1) y.fw.w.ps ctl).fw.life = y.fw.life + 1 := rfl
      omega
    · obtain ⟨lc, lb, evs, k, -, -, p3⟩ := does_parts hi hmv.1 hd e
      obtain ⟨i1, i2, i3⟩ := wait_late l h1 hw1 hl' hr' (by rw [he, e]) (p3 l ht).1
      refine ⟨?_, i2.trans ho, i3.trans hps⟩
      by_cases h0 : left y.fw.w = 0
      · have hov := wait_over (mv :: l) hi hw hl hr he h0
        have h4 : dist y.pc ≤ 4 := by cases y.pc <;> decide
        have hz : remains y1 = 0 := if_pos (h2 h0).1
        have : ticks [mv] = 0 := by
          cases mv with
          | tick b =>
            have := ht.1.1
            have hle := stepsNow_le l
            simp only [steps] at hov
            omega
          | _ => rfl
        omega
      · rw [h3 h0 l ht]
        omega

/-! ### Told to restart -/

/-- What no call of the main loop changes, and what only a request for a reset changes. -/
theorem plain_ok (k : Nat) {op : Op} (hop : op.Ok) (hp : Plain op) (w : W) : (stepOpC (s.ctx k) (s.cb k) op w).2.tm.ok = w.tm.ok := by
  rcases hp with rfl | rfl | ⟨rx, rfl⟩
  · exact op_same (s.ctx k) .startNodeSegmentInit (fun _ h => (by cases h)) w .ok (by decide)
  · have : ∀ ms, (stepOpC (s.ctx k) (s.cb k) (.tick ms) w).2.tm.ok = w.tm.ok := fun _ => rfl
    exact this 250
  · have h8 : ∀ m, rx = some m → m.size.toNat ≤ 8 := ok_small hop
    by_cases hx : w.v.st = .active ∧ rx ≠ none
    · cases rx with
      | none => exact absurd rfl hx.2
      | some m =>
        obtain ⟨tp, ub, t, h1, -⟩ := AvrProps.cycle (sz := s.sz) (e := s.env k) (s.stack k) m w hx.1
        have hs := Steps.trans (Foot.mono (B := [.customHb, .tx, .tm .heartbeat, .alarm, .appRead, .ext]) (bad := True) (.activeHeartbeat (c := Avr.ctx s.sz (s.env k))) (by decide)
            { AvrProps.handled (Avr.ctx s.sz (s.env k)) m w with tp := tp, ub := ub, out := (AvrProps.handled (Avr.ctx s.sz (s.env k)) m w).out ++ t })
          (Foot.mono (bad := True) (.activeExtRead (c := Avr.ctx s.sz (s.env k))) (by decide) _)
        have e1 : (stepOpC (s.ctx k) (s.cb k) (.process (some m)) w).2.tm.ok = (AvrProps.handled (Avr.ctx s.sz (s.env k)) m w).tm.ok := by
          have := hs.same .ok (by decide)
          rw [← h1] at this
          exact this
        have e2 : (preProcess (s.ctx k) (some m) w).2.tm.ok = w.tm.ok := pre_same _ _ _ .ok (by decide)
        rw [e1]
        unfold AvrProps.handled
        split
        · exact (handler_same (c := s.ctx k) (m := m) (preProcess (s.ctx k) (some m) w).2 .ok [] (by decide) (by simp)).trans e2
        · exact e2
    · have e : (stepOpC (s.ctx k) (s.cb k) (.process rx) w).2 = (Core.process (s.ctx k) rx w).2 := by
        refine AvrProps.calm_op (s.stack k) (.process rx) w fun r hr => ?_
        cases hr
        by_cases ha : w.v.st = .active
        · exact .inr (Classical.byContradiction fun hn => hx ⟨ha, hn⟩)
        · exact .inl ha
      rw [e, process_split]
      have e2 : (preProcess (s.ctx k) rx w).2.tm.ok = w.tm.ok := pre_same _ _ _ .ok (by decide)
      exact (Steps.same (Foot.dispatch (c := s.ctx k) (bad := True) (fun _ _ _ => trivial) (fun _ _ => trivial) (fun _ _ => trivial) (preProcess (s.ctx k) rx w).2) .ok (by decide)).trans e2

theorem req_kept {c : Ctx} {bad : Prop} {A : List Act} {w w' : W} (h : Steps c bad A w w') :
    ∃ t, w'.out = w.out ++ t ∧ (w'.v.resetReq = true → w.v.resetReq = true ∨ .resetRequest ∈ t) := by
  refine h.rel (R := fun w w' => ∃ t, w'.out = w.out ++ t ∧ (w'.v.resetReq = true → w.v.resetReq = true ∨ .resetRequest ∈ t)) (fun w => ⟨[], by simp, .inl⟩) ?_ ?_
  · rintro w w' w'' ⟨t, h1, h2⟩ ⟨t', h3, h4⟩
    refine ⟨t ++ t', by rw [h3, h1, List.append_assoc], fun h => ?_⟩
    rcases h4 h with h | h
    · exact (h2 h).imp_right (List.mem_append_left _)
    · exact .inr (List.mem_append_right _ h)
  · intro a _ w w' hs
    by_cases h1 : a = .resetReq
    · subst h1
      obtain ⟨-, rfl⟩ := hs
      exact ⟨[.resetRequest], rfl, fun _ => .inr (List.mem_singleton.mpr rfl)⟩
    by_cases h2 : a = .initVars
    · subst h2
      obtain ⟨r, rfl⟩ := hs
      exact ⟨_, rfl, fun h => (by cases h)⟩
    · obtain ⟨t, ht, -⟩ := (Steps.one (A := [a]) (List.mem_singleton.mpr rfl) hs).outs
      have e := hs.same .reset (by cases a <;> first | rfl | exact absurd rfl h1 | exact absurd rfl h2)
      simp only [Comp.same] at e
      exact ⟨t, ht, fun h => .inl (e ▸ h)⟩

/-- No reset was requested in this life, and its main timer exists. -/
structure Fresh (y : State) : Prop where
  req : y.fw.w.v.resetReq = false
  ok : y.fw.w.tm.ok .main = true

theorem fresh_boot (past : List Out) (n : Nat) (ps : Nat → U8) (ctl : CanDrv.State) : Fresh (boot s past n ps ctl) := by
  refine ⟨?_, congrFun (init_ok (s.ctx n) allOk (powerUp ps)) .main⟩
  have hs := Foot.coreInit (c := s.ctx n) (bad := True) allOk (powerUp ps)
  obtain ⟨t, h1, h2⟩ := req_kept hs
  obtain ⟨t', h3, -, h4⟩ := AvrProps.quiet_trace hs (by decide) (by decide)
  cases List.append_cancel_left (h1.symm.trans h3)
  show (Core.init (s.ctx n) allOk (powerUp ps)).2.v.resetReq = false
  cases hb : (Core.init (s.ctx n) allOk (powerUp ps)).2.v.resetReq with
  | false => rfl
  | true =>
    rcases h2 hb with h | h
    · cases h
    · exact absurd h h4

theorem fresh_call {y : State} (hi : Inv s y) (h : Fresh y) {op : Op} (hop : op.Ok) (hp : Plain op)
    (hr : .resetRequest ∉ (Avr.call s op y.fw).w.out.drop y.fw.w.out.length) :
    (Avr.call s op y.fw).w.v.resetReq = false ∧ (Avr.call s op y.fw).w.tm.ok .main = true := by
  refine ⟨?_, ?_⟩
  · have hlb : LbOk (s.ctx y.fw.life) y.fw.w := hi.good.lb
    obtain ⟨L, -, hs⟩ := stepOpC_steps (c := s.ctx y.fw.life) (cb := s.cb y.fw.life) (AvrProps.cb_ok (s.stack y.fw.life)) hop hlb
    rw [← call_w] at hs
    obtain ⟨t, h1, h2⟩ := req_kept hs
    rw [h1, List.drop_left] at hr
    cases hb : (Avr.call s op y.fw).w.v.resetReq with
    | false => rfl
    | true =>
      rcases h2 hb with h' | h'
      · rw [h.req] at h'; cases h'
      · exact absurd h' hr
  · rw [call_w, plain_ok y.fw.life hop hp]
    exact h.ok

theorem fresh_does {y y1 : State} {mv : Move} (hi : Inv s y) (h : Fresh y) (hd : Does s a y mv y1) : Fresh y1 := by
  cases hd with
  | tick b => exact ⟨h.req, h.ok⟩
  | cycle m x hpc hm hr hc =>
    obtain ⟨h1, h2⟩ := fresh_call hi h hm (.inr (.inr ⟨m, rfl⟩)) hr
    exact ⟨h1, h2⟩
  | reset m ctl hpc hm hr => exact fresh_boot ..
  | segInit x hpc hp hl hc =>
    obtain ⟨t, h1, h2⟩ := AvrProps.other_quiet (s := s) (op := .startNodeSegmentInit) y.fw (fun _ h => (by cases h))
    obtain ⟨h3, h4⟩ := fresh_call hi h (op := .startNodeSegmentInit) trivial (.inl rfl) (by rw [h1, List.drop_left]; exact h2)
    exact ⟨h3, h4⟩
  | quiet hpc hp => exact ⟨h.req, h.ok⟩
  | remember hpc => exact ⟨h.req, h.ok⟩
  | due x sw hpc hz hsw hc =>
    obtain ⟨k1, k2, k3, k4, -, -, k7⟩ := AvrProps.tick_call s 250 y.fw
    have e : (later s y.fw).w = (Avr.call s (.tick 250) y.fw).w := by rw [later_w, call_w]
    rw [← e] at k1 k4
    exact ⟨by rw [k1]; exact h.req, by rw [k4]; exact h.ok⟩
  | notDue hpc hz => exact ⟨h.req, h.ok⟩
  | rx b x hc => exact ⟨h.req, h.ok⟩
  | tx x hc => exact ⟨h.req, h.ok⟩
  | power => exact fresh_boot ..

theorem run_fresh : ∀ (l : List Move) {y y' : State}, Inv s y → (∀ mv ∈ l, AvrSys.Ok mv) → Fresh y → run s a l y = .ok y' → Fresh y'
  | [], y, y', _, _, h, hr => by cases hr; exact h
  | mv :: l, y, y', hi, hl, h, hr => by
    obtain ⟨y1, hd, h1, hr'⟩ := run_does hi (fun mv h => hl mv (List.mem_cons_of_mem _ h)) (hl _ (List.mem_cons_self ..)) hr
    exact run_fresh l h1 (fun mv h => hl mv (List.mem_cons_of_mem _ h)) (fresh_does hi h hd) hr'

/-- A drop nickname event with a reset makes the active node of the example wait. -/
theorem dropped_op (k : Nat) {m : Msg} {f : U8} {tl : List U8} {w : W} (ha : w.v.st = .active) (ht : tl.length ≤ 1) (hm : Request m 8 (w.v.nick :: f :: tl))
    (hf : f.getLsbD 5 = true ∨ f.getLsbD 7 = false) (hreq : w.v.resetReq = false) (hok : w.tm.ok .main = true) (h8 : (Op.process (some m)).Ok) :
    Sleep.Waiting (stepOpC (s.ctx k) (s.cb k) (.process (some m)) w).2 (tl.headD 0) ∧
    (stepOpC (s.ctx k) (s.cb k) (.process (some m)) w).2.v.nick = (if f.getLsbD 5 then w.v.nick else 0xFF) ∧
    (w.ps (Ps.addrNickname (s.ctx k)) = w.v.nick → (stepOpC (s.ctx k) (s.cb k) (.process (some m)) w).2.ps (Ps.addrNickname (s.ctx k)) = (if f.getLsbD 5 then w.v.nick else 0xFF)) := by
  have hok' := plain_ok (s := s) k h8 (.inr (.inr ⟨_, rfl⟩)) w
  obtain ⟨tp, ub, t, h1, -⟩ := AvrProps.cycle (sz := s.sz) (e := s.env k) (s.stack k) m w ha
  have hs := Steps.trans (Foot.mono (B := [.customHb, .tx, .tm .heartbeat, .alarm, .appRead, .ext]) (bad := True) (.activeHeartbeat (c := Avr.ctx s.sz (s.env k))) (by decide)
      { AvrProps.handled (Avr.ctx s.sz (s.env k)) m w with tp := tp, ub := ub, out := (AvrProps.handled (Avr.ctx s.sz (s.env k)) m w).out ++ t })
    (Foot.mono (bad := True) (.activeExtRead (c := Avr.ctx s.sz (s.env k))) (by decide) _)
  rw [← h1] at hs
  have e1 := hs.same .st (by decide)
  have e2 := hs.same .sec (by decide)
  have e3 := hs.same .reset (by decide)
  have e4 := hs.same (.tm .main) (by decide)
  have e5 := hs.same .nick (by decide)
  have e6 := hs.same .ps (by decide)
  simp only [Comp.same] at e1 e2 e3 e4 e5 e6
  have p1 : (preProcess (s.ctx k) (some m) w).2.v.st = w.v.st := pre_same _ _ _ .st (by decide)
  have p2 : (preProcess (s.ctx k) (some m) w).2.v.nick = w.v.nick := pre_same _ _ _ .nick (by decide)
  have p3 : (preProcess (s.ctx k) (some m) w).2.v.resetReq = w.v.resetReq := pre_same _ _ _ .reset (by decide)
  have p4 : (preProcess (s.ctx k) (some m) w).2.tm.ok = w.tm.ok := pre_same _ _ _ .ok (by decide)
  have p5 : (preProcess (s.ctx k) (some m) w).2.ps = w.ps := pre_same _ _ _ .ps (by decide)
  have hd := Drop.handler_dropped (c := s.ctx k) (p1.trans ha) ht (by rw [p2]; exact hm)
  have hi : (!f.getLsbD 5 && f.getLsbD 7) = false := by rcases hf with hf | hf <;> rw [hf] <;> simp
  rw [hi] at hd
  have eh : (Core.handleProtocolClassType (s.ctx k) m (preProcess (s.ctx k) (some m) w).2).2 = AvrProps.handled (Avr.ctx s.sz (s.env k)) m w := by
    unfold AvrProps.handled
    rw [if_pos hm.cls]
  rw [eh] at hd
  obtain ⟨d1, d2, d3, d4, -⟩ := hd
  obtain ⟨d5, d6, d7⟩ := d2 rfl
  rw [p2] at d3 d4
  rw [p5] at d4
  refine ⟨⟨e1.trans d1, e2.trans d5, e3.trans (d6.trans (p3.trans hreq)), by rw [hok']; exact hok, e4.trans (d7 (by rw [p4]; exact hok))⟩, e5.trans d3, fun h => ?_⟩
  have := d4 h
  rw [d3] at this
  rw [← this]
  exact congrFun e6 _

/-- A frame comes to a node which has delivered all frames; the main loop hands its event to the framework. -/
theorem got_frame {y y1 : State} (hi : Inv s y) (hst : y.fw.w.v.st ≠ .reset) (hpc : y.pc = .process) (hu : y.x.2.stored.length = y.heard.length) {b : CanDrv.BusFrame} (hv : Spec.CanDrv.Valid b)
    (hr1 : run s a [.rx b, .step] y = .ok y1) : ∃ m x, Spec.CanNode.Carries b m ∧ (Op.process (some m)).Ok ∧
      y1 = { y with fw := Avr.call s (.process (some m)) y.fw, x, heard := y.heard ++ [m], pc := .check } ∧
      CanNode.run (s.ctx y.fw.life) (s.cb y.fw.life) (a y.fw.life) [.rx b, .cycle] (node y) = .ok (node y1) := by
  obtain ⟨y0, hd0, hi0, hr0⟩ := run_does hi (l := [.step]) (by intro mv h; rw [List.mem_singleton.mp h]; trivial) (mv := .rx _) hv hr1
  obtain ⟨y2, hd2, hi2, hr2⟩ := run_does hi0 (l := []) (by simp) (mv := .step) trivial hr0
  cases hr2
  cases hd0 with
  | rx b x hc =>
    cases hd2 with
    | cycle m x' hpc' hm hrq hc' =>
      have hrun : CanNode.run (s.ctx y.fw.life) (s.cb y.fw.life) (a y.fw.life) [.rx b, .cycle] (node y) =
          .ok ⟨(Avr.call s (.process m) y.fw).w, x', y.heard ++ m.toList⟩ := by
        have hc2 : CanNode.move (s.ctx y.fw.life) (s.cb y.fw.life) (a y.fw.life) ⟨y.fw.w, x, y.heard⟩ .cycle = .ok ⟨(Avr.call s (.process m) y.fw).w, x', y.heard ++ m.toList⟩ := hc'
        simp only [CanNode.run, hc, hc2]
      obtain ⟨m', hcar, hsz, hw, hh⟩ := CanConfig.delivered (AvrProps.good s.sz (s.env y.fw.life)) (AvrProps.cb_ok _) (a y.fw.life) hi.good hu hv hrun
      have hm' : m = some m' := by
        have := List.append_cancel_left hh
        cases m with
        | none => cases this
        | some m => cases this; rfl
      subst hm'
      exact ⟨m', x', hcar, hm, rfl, hrun⟩
    | reset m ctl' hpc' hm hrq => exact absurd (AvrProps.reset_last s m y.fw (ok_small hm) hrq).1 hst
    | segInit x' hpc' => exact absurd (hpc.symm.trans hpc') (by decide)
    | quiet hpc' => exact absurd (hpc.symm.trans hpc') (by decide)
    | remember hpc' => exact absurd (hpc.symm.trans hpc') (by decide)
    | due x' sw hpc' => exact absurd (hpc.symm.trans hpc') (by decide)
    | notDue hpc' => exact absurd (hpc.symm.trans hpc') (by decide)

section
variable {past : List Out} {n : Nat} {ps : Nat → U8} {ctl : CanDrv.State} {l : List Move} (hl : ∀ mv ∈ l, AvrSys.Ok mv) {y : State}
  (hr : run s a l (boot s past n ps ctl) = .ok y) (hn : y.fw.life = n)
include hl hr hn

/-- C112: a frame on the bus which tells the active example to drop its nickname and to restart begins the wait: from the next cycle on the node waits for the time given in the frame. -/
theorem C112_told (ha : y.fw.w.v.st = .active) (hpc : y.pc = .process) (hu : y.x.2.stored.length = y.heard.length) {prio f origin : U8} {hard : Bool} {tl : List U8} (hp : prio.toNat < 8)
    (ht : tl.length ≤ 1) (hf : f.getLsbD 5 = true ∨ f.getLsbD 7 = false) {y1 : State}
    (hr1 : run s a [.rx (Spec.CanNode.protocol prio hard 8 origin (y.fw.w.v.nick :: f :: tl)), .step] y = .ok y1) :
    y1.fw.life = n ∧ y1.pressed = y.pressed ∧ Sleep.Waiting y1.fw.w (tl.headD 0) ∧ y1.fw.w.v.nick = (if f.getLsbD 5 then y.fw.w.v.nick else 0xFF) ∧
    y1.fw.w.ps (Ps.addrNickname (s.ctx n)) = y1.fw.w.v.nick := by
  have hi := inv_of (boot_inv past n ps ctl) hl hr
  have hfr := run_fresh l (boot_inv past n ps ctl) hl (fresh_boot ..) hr
  have h8 : (y.fw.w.v.nick :: f :: tl).length ≤ 8 := by simp; omega
  have hv := CanNode.protocol_valid (prio := prio) (typ := 8) (origin := origin) (hard := hard) hp h8
  obtain ⟨m, x, hcar, hm, rfl, -⟩ := got_frame hi (by rw [ha]; decide) hpc hu hv hr1
  have hreq := CanNode.carries_protocol hp h8 hcar
  obtain ⟨q1, q2, q3⟩ := dropped_op (s := s) y.fw.life ha ht hreq hf hfr.req hfr.ok hm
  obtain ⟨ops, hops, hok, -⟩ := C112_time hl hr hn
  subst hn
  obtain ⟨-, -, -, -, -, hnk, -⟩ := history_traceC (AvrProps.good s.sz (s.env y.fw.life)).notBad (AvrProps.good s.sz (s.env y.fw.life)).lb (cb := s.cb y.fw.life) (AvrProps.cb_ok _) allOk ops hok (powerUp ps)
  have e : NickOk (s.ctx y.fw.life) y.fw.w := hops ▸ hnk
  exact ⟨rfl, rfl, q1, q2, (q3 e.symm).trans q2.symm⟩

/-- C112: and then it restarts: not earlier than 250 ms before the end of this time, and at the latest when it has elapsed, if the main loop runs once in each millisecond, nobody presses the button, and the power stays on,
whatever frames the other nodes send.  Until then it neither sends nor stores anything. -/
theorem C112_reset {t : U8} (hw : Sleep.Waiting y.fw.w t) (hp : y.pressed = false) {l' : List Move} (hl' : ∀ mv ∈ l', AvrSys.Ok mv ∧ Alone mv) {y' : State} (hr' : run s a l' y = .ok y') :
    (y'.fw.life ≠ n → 1000 * t.toNat ≤ ticks l' + 250) ∧ (Fast (l ++ l') → 1000 * t.toNat < ticks l' → n < y'.fw.life) ∧
    (Fast (l ++ l') → y'.fw.life = n → y'.fw.w.out = y.fw.w.out ∧ y'.fw.w.ps = y.fw.w.ps) := by
  have hi := inv_of (boot_inv past n ps ctl) hl hr
  obtain ⟨h1, h2⟩ := AvrProps.waits_of hw
  have hle : rest y ≤ 250 := hi.sw.le
  have hwi : WaitInv y := by
    refine ⟨h1, hp, fun _ h0 => ?_⟩
    rw [hw.rem]
    split
    · rename_i h3
      rw [h2, h3] at h0
      exact absurd rfl h0
    · decide
  have late : Fast (l ++ l') → y'.fw.life = n → ticks l' ≤ remains y ∧ y'.fw.w.out = y.fw.w.out ∧ y'.fw.w.ps = y.fw.w.ps := fun hf he => by
    have hint := run_inTime l l' (boot_inv past n ps ctl) hl hr hn ⟨hf, fun h => (by rw [rest_boot] at h; cases h)⟩
    exact wait_late l' hi hwi hl' hr' (he.trans hn.symm) hint
  have hge := (run_lives l' hi (fun mv h => (hl' mv h).1) hr').1
  refine ⟨fun hne => ?_, fun hf ht => ?_, fun hf he => (late hf he).2⟩
  · have := wait_early l' hi hwi hl' hr' (by rw [hn]; exact hne)
    omega
  · rcases Nat.lt_or_ge n y'.fw.life with h | h
    · exact h
    · have := (late hf (by omega)).1
      unfold remains at this
      split at this <;> omega

end


section
variable {past : List Out} {n : Nat} {ps : Nat → U8} {ctl : CanDrv.State} {l l' : List Move} (hl : ∀ mv ∈ l ++ l', AvrSys.Ok mv) {y y' : State}
  (hr : run s a l (boot s past n ps ctl) = .ok y) (hr' : run s a l' y = .ok y') (hn : y'.fw.life = n)
include hl hr hr' hn

/-- C111: configured over the bus the example acts accordingly: the frames of a piece of history in which the button is not held are the settings of the active example, and the LED and the frames it sends for the next event are those of the
decision matrix written by them, in the zone of the node, whatever the main loop and its timers do in between. -/
theorem C111_configured (hh : ¬ Held (l ++ l')) (ha : y.fw.w.v.st = .active) (hu : y.x.2.stored.length = y.heard.length) (hpaced : Paced 0 l')
    (hdata : ∀ b ∈ AvrSys.offered l', b.rtr = false ∧ (b.id / 2 ^ 16 % 512 = 0 → b.id / 2 ^ 8 % 256 ∉ [1, 3, 6, 8, 12, 23]))
    (hre : ¬ factoryReset y.fw.w y'.fw.w) (hpc' : y'.pc = .process) (hu' : y'.x.2.stored.length = y'.heard.length) {b : CanDrv.BusFrame} (hb : Spec.CanDrv.Valid b)
    (hcls : b.id / 2 ^ 16 % 512 ≠ 0) {y'' : State} (hr'' : run s a [.rx b, .step] y' = .ok y'') :
    let cfg := Avr.cfg s.sz
    let dm := ((AvrSys.offered l').foldl (Spec.Settings.frame cfg y.fw.w.v.nick) (Spec.settings cfg y.fw.w)).matrix cfg (y'.fw.w.ps (Ps.addrZone cfg)) (y'.fw.w.ps (Ps.addrSubZone cfg))
    ∃ m t post, Spec.CanNode.Carries b m ∧ y''.fw.w.out = y'.fw.w.out ++ ([.event m] ++ t ++ post) ∧ Spec.Avr.Reacts y''.fw.w.v.nick (Spec.Dm.calls dm m m.data.toList) t ∧
      Spec.Dm.actions post = [] ∧ y''.fw.led.lit = Spec.Avr.ledThen y'.fw.led.lit (Spec.Dm.calls dm m m.data.toList) := by
  intro cfg dm
  have hl1 : ∀ mv ∈ l, AvrSys.Ok mv := fun mv h => hl mv (List.mem_append_left _ h)
  have hl2 : ∀ mv ∈ l', AvrSys.Ok mv := fun mv h => hl mv (List.mem_append_right _ h)
  have h1 := lives_eq hl hr hr' hn
  have hi := inv_of (boot_inv past n ps ctl) hl1 hr
  have hi' := inv_of hi hl2 hr'
  obtain ⟨lc, lb, evs, k, p, -, -⟩ := run_parts l (boot_inv past n ps ctl) hl1 hr h1
  obtain ⟨lc', lb', evs', k', p', hp', -⟩ := run_parts l' hi hl2 hr' (hn.trans h1.symm)
  have q := p.append h1 p'
  have hticks : ∀ op, .call op ∈ lc' → ∃ ms, op = .tick ms := by
    intro op hop
    rcases p'.calls op hop with rfl | rfl
    · exfalso
      have hb : (Button.run Button.isrAvr (lb ++ lb') Button.init).2 = evs ++ evs' := by rw [← btn_boot (s := s) past n ps ctl, q.button]
      have h0 : 0 < starts (lc ++ lc') := by
        obtain ⟨l1, l2, e⟩ := List.append_of_mem hop
        rw [e, starts_append, starts_append]
        simp only [starts]
        omega
      have hm : .segInit ∈ (Button.run Button.isrAvr (lb ++ lb') Button.init).2 := by
        rw [hb]
        rw [q.starts] at h0
        exact List.count_pos_iff.1 h0
      obtain ⟨q1, q2, e⟩ := seg_held hm
      rw [hb, q.seen] at e
      exact hh ⟨q1, q2, e⟩
    · exact ⟨250, rfl⟩
  obtain ⟨ps0, ctl0, lc0, o1, -, o3⟩ := reach hl1 hr h1
  have hbus := p'.bus
  have hoff := p'.offered
  have hpa := hp' 0 false (fun h => (by cases h)) hpaced
  have hst := (CanConfig.avr_stays s y.fw.life (a y.fw.life) hi.good ha hu lc' p'.ok hticks hpa (by rw [hoff]; exact hdata) hbus hre hu') lc' [] (node y') (by simp) hbus
  obtain ⟨m, x, hcar, hm, rfl, hrun⟩ := got_frame hi' (by rw [show y'.fw.w.v.st = .active from hst.1]; decide) hpc' hu' hb hr''
  rw [hn, ← h1] at hrun
  obtain ⟨m', t, post, g1, g2, g3, g4⟩ := CanConfig.C110_avr s y.fw.life (a y.fw.life) ps0 ctl0 lc0 o1 o3 ha hu lc' p'.ok hticks hpa (by rw [hoff]; exact hdata) hbus hre hu' b hb hcls hrun
  rw [hoff] at g3
  have g2' : (Avr.call s (.process (some m)) y'.fw).w.out = y'.fw.w.out ++ ([.event m'] ++ t ++ post) := g2
  refine ⟨m', t, post, g1, g2', g3, g4, ?_⟩
  show (Avr.call s (.process (some m)) y'.fw).led.lit = _
  rw [AvrProps.led_of g2', DmProps.actions_append, DmProps.actions_append, g4, (AvrProps.reacts_only g3).1, List.append_nil]
  rfl

end

/-! ### Histories exist -/

theorem cb_small (n : Nat) : ∀ m, Vscp.Sends (s.cb n) m → m.size.toNat ≤ 8 := by
  rintro m ⟨w, hm⟩
  unfold Avr.Surr.cb Avr.cb at hm
  split at hm
  · split at hm
    · cases List.mem_singleton.1 hm; exact (by decide : (3 : U8).toNat ≤ 8)
    · split at hm
      · cases List.mem_singleton.1 hm; exact (by decide : (3 : U8).toNat ≤ 8)
      · cases hm
  · cases hm

theorem Reach.move {y : State} (h : Reach s a y) (hok : ∀ n i, (s.env n).txOk i = true) (ha : ∀ n i k, 14 ≤ (a n).hw i k 1) {mv : CanNode.Move} (hm : Spec.CanNode.Ok mv)
    (hc : ∀ op, mv = .call op → op = .startNodeSegmentInit ∨ op = .tick 250) :
    CanNode.move (s.ctx y.fw.life) (s.cb y.fw.life) (a y.fw.life) (node y) mv ≠ .impossible := by
  obtain ⟨ps, ctl, lc, h1, h2, h3⟩ := h
  obtain ⟨n', e⟩ := CanNode.C105_possible (AvrProps.good s.sz (s.env y.fw.life)) (hok _) (AvrProps.cb_ok _) (cb_small _) (ha _) allOk ps ctl (lc ++ [mv]) (by
    intro mv' h
    rcases List.mem_append.1 h with h | h
    · exact h1 _ h
    · rw [List.mem_singleton.1 h]; exact hm) (by
    intro m h
    rcases List.mem_append.1 h with h | h
    · rcases h2 _ h with h | h <;> cases h
    · rcases hc _ (List.mem_singleton.1 h).symm with h | h <;> cases h)
  rw [CanConfig.run_append, h3] at e
  intro hi
  simp only [CanNode.run, hi] at e
  cases e

theorem act_possible {y : State} (h : Reach s a y) (hok : ∀ n i, (s.env n).txOk i = true) (ha : ∀ n i k, 14 ≤ (a n).hw i k 1) {mv : CanNode.Move} (hm : Spec.CanNode.Ok mv)
    (hc : ∀ op, mv = .call op → op = .startNodeSegmentInit ∨ op = .tick 250) : act s a mv y ≠ .impossible := by
  have := h.move hok ha hm hc
  unfold act
  intro e
  split at e <;> first | (cases e; done) | exact this ‹_›

theorem move_possible {y : State} (h : Reach s a y) (hok : ∀ n i, (s.env n).txOk i = true) (ha : ∀ n i k, 14 ≤ (a n).hw i k 1) {mv : Move} (hm : AvrSys.Ok mv) :
    move s a y mv ≠ .impossible := by
  have hcall : ∀ op, op = .startNodeSegmentInit ∨ op = .tick 250 → ∀ y', node y' = node y → y'.fw = y.fw → act s a (.call op) y' ≠ .impossible := by
    intro op hop y' e1 e2
    refine act_possible (y := y') ?_ hok ha ?_ fun op' e => by cases e; exact hop
    · obtain ⟨ps, ctl, lc, h1, h2, h3⟩ := h
      refine ⟨ps, ctl, lc, h1, h2, ?_⟩
      rw [e1, e2]
      exact h3
    · rcases hop with rfl | rfl
      · exact .inl trivial
      · exact .inr ⟨_, rfl⟩
  cases mv with
  | tick b => exact fun h => (by cases h)
  | power => exact fun h => (by cases h)
  | rx b => exact act_possible (mv := .rx b) h hok ha hm fun op e => (by cases e)
  | tx => exact act_possible (mv := .tx) h hok ha trivial fun op e => (by cases e)
  | step =>
    simp only [move, step]
    cases hpc : y.pc with
    | process =>
      dsimp only
      unfold stepProcess
      have := act_possible h hok ha (mv := .cycle) trivial fun op e => (by cases e)
      split <;> first | exact absurd ‹_› this | exact fun h => (by cases h)
    | check =>
      dsimp only
      unfold stepCheck
      have := hcall .startNodeSegmentInit (.inl rfl) y rfl rfl
      split
      · split <;> first | exact absurd ‹_› this | exact fun h => (by cases h)
      · exact fun h => (by cases h)
    | remember => exact fun h => (by cases h)
    | periodic =>
      dsimp only
      unfold stepPeriodic
      have := hcall (.tick 250) (.inr rfl) { y with sw := (SwTimer.getStatus MainLoop.ID y.sw).2 } rfl rfl
      dsimp only
      split
      · split <;> first | exact absurd ‹_› this | exact fun h => (by cases h)
      · exact fun h => (by cases h)

theorem reach_does {y y' : State} {mv : Move} (hi : Inv s y) (hm : AvrSys.Ok mv) (h : Reach s a y) (hd : Does s a y mv y') : Reach s a y' := by
  rcases does_life hd with e | ⟨-, past, ps, ctl, e⟩
  · obtain ⟨lc, lb, evs, k, p, -, -⟩ := does_parts hi hm hd e
    obtain ⟨ps, ctl, lc0, h1, h2, h3⟩ := h
    refine ⟨ps, ctl, lc0 ++ lc, fun mv h => (List.mem_append.1 h).elim (h1 mv) (p.ok mv), fun op h => (List.mem_append.1 h).elim (h2 op) (p.calls op), ?_⟩
    rw [e, CanConfig.run_append, h3]
    exact p.bus
  · refine ⟨ps, ctl, [], fun _ h => (by cases h), fun _ h => (by cases h), ?_⟩
    rw [← node_boot (s := s) past]
    show Res.ok (node (boot s past y'.fw.life ps ctl)) = _
    rw [← e]

/-- C111: any history can happen, as long as the bus is free enough that the driver always gets rid of a frame. -/
theorem C111_possible (hok : ∀ n i, (s.env n).txOk i = true) (ha : ∀ n i k, 14 ≤ (a n).hw i k 1) (l : List Move) (hl : ∀ mv ∈ l, AvrSys.Ok mv) (past : List Out) (n : Nat)
    (ps : Nat → U8) (ctl : CanDrv.State) : ∃ y, run s a l (boot s past n ps ctl) = .ok y := by
  suffices H : ∀ (l : List Move) (y : State), Inv s y → Reach s a y → (∀ mv ∈ l, AvrSys.Ok mv) → ∃ y', run s a l y = .ok y' from
    H l _ (boot_inv ..) ⟨ps, ctl, [], fun _ h => (by cases h), fun _ h => (by cases h), rfl⟩ hl
  intro l
  induction l with
  | nil => exact fun y _ _ _ => ⟨y, rfl⟩
  | cons mv l ih =>
    intro y hi h hl
    have hmv := hl mv (List.mem_cons_self ..)
    rcases move_does (a := a) hi mv hmv with e | ⟨y1, e, hd, h1⟩
    · exact absurd e (move_possible h hok ha hmv)
    · simp only [run, e]
      exact ih y1 h1 (reach_does hi hmv h hd) fun mv h => hl mv (List.mem_cons_of_mem _ h)

/-! ### Concrete cases -/

instance decFast : ∀ l, Decidable (Fast l)
  | [] => isTrue trivial
  | .tick _ :: l => @instDecidableAnd _ _ _ (decFast l)
  | .step :: l => decFast l
  | .rx _ :: l => decFast l
  | .tx :: l => decFast l
  | .power :: l => decFast l

instance decPaced : ∀ k l, Decidable (Paced k l)
  | _, [] => isTrue trivial
  | k, .rx _ :: l => @instDecidableAnd _ _ _ (decPaced 4 l)
  | k, .step :: l => decPaced (k - 1) l
  | k, .tick _ :: l => decPaced k l
  | k, .tx :: l => decPaced k l
  | k, .power :: l => decPaced k l

/-- The start of the example. -/
def exBoot : State := boot AvrProps.exSurr [] 0 AvrProps.exMem ⟨Vector.replicate 15 CanDrvProps.empty, false⟩

/-- A history of the example. -/
def exHist (l : List Move) : Res State := run AvrProps.exSurr (fun _ => CanNode.exAround) l exBoot

/-- A millisecond, and a run of the main loop. -/
def exMs (b : Bool) : List Move := [.tick b, .step, .step, .step, .step]

/-- Milliseconds. -/
def exTime (b : Bool) (n : Nat) : List Move := (List.replicate n (exMs b)).flatten

/-- The first run of the main loop, and frames which write the first row of the decision matrix (events of class 40 and type 7: the LED on). -/
def exSet : List Move := [.rx (Spec.CanNode.protocol 3 false 38 1 [5, 0, 1, 0, 0, 0x80, 0xFF, 40])] ++ exMs false ++
  [.rx (Spec.CanNode.protocol 3 false 38 1 [5, 0, 1, 4, 0xFF, 7, 1, 9]), .tx] ++ exMs true

theorem ex_possible {l : List Move} (hl : ∀ mv ∈ l, AvrSys.Ok mv) : ∃ y, exHist l = .ok y :=
  C111_possible (s := AvrProps.exSurr) (a := fun _ => CanNode.exAround) (fun _ _ => rfl) (fun _ _ _ => Nat.le_refl _) l hl ..

/-- The hypotheses of `C111_configured` are met, and the LED is switched on. -/
example : (∀ mv ∈ exMs false ++ exSet, AvrSys.Ok mv) ∧ Fast (exMs false ++ exSet) ∧ Paced 0 exSet ∧ ¬ Held (exMs false ++ exSet) ∧
    (∀ b ∈ AvrSys.offered exSet, b.rtr = false ∧ (b.id / 2 ^ 16 % 512 = 0 → b.id / 2 ^ 8 % 256 ∉ [1, 3, 6, 8, 12, 23])) := by
  refine ⟨?_, by decide, by decide, ?_, by decide⟩
  · simp [exSet, exMs, AvrSys.Ok, Spec.CanDrv.Valid, Spec.CanNode.protocol]
  · rintro ⟨p, q, h⟩
    have := congrArg List.length h
    simp [exSet, exMs, AvrSys.button] at this
    omega

example : (match exHist (exMs false), exHist (exMs false ++ exSet), exHist (exMs false ++ exSet ++ [.rx CanConfig.exNews, .step]) with
    | .ok y, .ok y', .ok y'' => decide (y.fw.life = 0 ∧ y.fw.w.v.st = .active ∧ y.x.2.stored.length = y.heard.length ∧ y'.fw.life = 0 ∧ y'.pc = .process ∧ y'.x.2.stored.length = y'.heard.length ∧
        .portRestore ∉ y'.fw.w.out ∧ y'.fw.led.lit = false ∧ y''.fw.led.lit = true)
    | _, _, _ => false) = true := by decide +kernel

/-- The button, held for 101 ms, makes the example look for a nickname; for 100 ms it does not. -/
example : (match exHist (exMs false ++ exTime true 100), exHist (exMs false ++ exTime true 101) with
    | .ok y, .ok y' => decide (y.fw.w.v.st = .active ∧ y'.fw.w.v.st = .init ∧ y'.fw.w.v.nick = 0xFF)
    | _, _ => false) = true := by decide +kernel

/-- The example is told to drop its nickname and to restart in 3 s: the hypotheses of `C112_told` and `C112_reset` are met. -/
def exDrop : List Move := [.rx (Spec.CanNode.protocol 3 false 8 1 [5, 0, 3]), .step]

theorem ex_told : (∀ mv ∈ exMs false ++ exDrop, AvrSys.Ok mv) ∧ (match exHist (exMs false), exHist (exMs false ++ exDrop) with
    | .ok y, .ok y1 => decide (y.fw.life = 0 ∧ y.fw.w.v.st = .active ∧ y.pc = .process ∧ y.x.2.stored.length = y.heard.length ∧ y.fw.w.v.nick = 5 ∧
        y1.fw.life = 0 ∧ y1.pressed = false ∧ y1.fw.w.v.st = .reset ∧ y1.fw.w.v.secCnt = 3 ∧ y1.fw.w.v.resetReq = false ∧ y1.fw.w.tm.ok .main = true ∧ y1.fw.w.tm.rem .main = 1000)
    | _, _ => false) = true := by
  refine ⟨?_, by decide +kernel⟩
  simp [exDrop, exMs, AvrSys.Ok, Spec.CanDrv.Valid, Spec.CanNode.protocol]

/-- It is still in its first life 2.75 s later, and in a later one 3 s later. -/
example : (∃ y, exHist (exMs false ++ exDrop ++ (List.replicate 3 .step ++ exTime false 2749)) = .ok y ∧ y.fw.life = 0) ∧
    ∃ y, exHist (exMs false ++ exDrop ++ (List.replicate 3 .step ++ exTime false 3001)) = .ok y ∧ 0 < y.fw.life := by
  have hms : ∀ n, ∀ mv ∈ List.replicate 3 .step ++ exTime false n, AvrSys.Ok mv ∧ Alone mv := by
    intro n mv h
    simp only [exTime, exMs, List.mem_append, List.mem_replicate, List.mem_flatten] at h
    rcases h with ⟨-, rfl⟩ | ⟨l, ⟨-, rfl⟩, h⟩
    · exact ⟨trivial, trivial⟩
    · simp only [List.mem_cons, List.not_mem_nil, or_false] at h
      rcases h with rfl | rfl | rfl | rfl | rfl <;> exact ⟨trivial, by first | rfl | trivial⟩
  obtain ⟨hok, hst⟩ := ex_told
  obtain ⟨y1, hy1⟩ := ex_possible hok
  obtain ⟨y, hy⟩ := ex_possible (l := exMs false) fun mv h => hok mv (List.mem_append_left _ h)
  rw [hy, hy1] at hst
  obtain ⟨-, -, -, -, -, h1, h2, h3, h4, h5, h6, h7⟩ := of_decide_eq_true hst
  have hw : Sleep.Waiting y1.fw.w 3 := ⟨h3, h4, h5, h6, h7⟩
  have key : ∀ n, ∃ y', exHist (exMs false ++ exDrop ++ (List.replicate 3 .step ++ exTime false n)) = .ok y' ∧ run AvrProps.exSurr (fun _ => CanNode.exAround) (List.replicate 3 .step ++ exTime false n) y1 = .ok y' := by
    intro n
    obtain ⟨y', hy'⟩ := ex_possible (l := exMs false ++ exDrop ++ (List.replicate 3 .step ++ exTime false n)) fun mv h => (List.mem_append.1 h).elim (hok mv) fun h => (hms n mv h).1
    refine ⟨y', hy', ?_⟩
    unfold exHist at hy' hy1
    rw [run_append, hy1] at hy'
    exact hy'
  have ht : ∀ n, ticks (List.replicate 3 .step ++ exTime false n) = n := by
    intro n
    rw [ticks_append]
    have : ∀ n, ticks (exTime false n) = n := fun n => by
      induction n with
      | zero => rfl
      | succ n ih =>
        have e : exTime false (n + 1) = exMs false ++ exTime false n := rfl
        rw [e, ticks_append, ih]
        show 1 + n = n + 1
        omega
    rw [this]
    show 0 + n = n
    omega
  have hf : ∀ n, Fast (exMs false ++ exDrop ++ (List.replicate 3 .step ++ exTime false n)) := by
    have : ∀ n, Fast (exTime false n) := fun n => by
      induction n with
      | zero => trivial
      | succ n ih =>
        have e : exTime false (n + 1) = exMs false ++ exTime false n := rfl
        rw [e]
        exact ⟨by simp [stepsNow], ih⟩
    exact fun n => ⟨by simp [stepsNow], this n⟩
  refine ⟨?_, ?_⟩
  · obtain ⟨y', e1, e2⟩ := key 2749
    refine ⟨y', e1, Classical.byContradiction fun hne => ?_⟩
    have := (C112_reset (n := 0) hok hy1 h1 hw h2 (hms _) e2).1 hne
    rw [ht] at this
    exact absurd this (by decide)
  · obtain ⟨y', e1, e2⟩ := key 3001
    refine ⟨y', e1, (C112_reset (n := 0) hok hy1 h1 hw h2 (hms _) e2).2.1 (hf _) ?_⟩
    rw [ht]
    decide

end Vscp.Avr.Sys
