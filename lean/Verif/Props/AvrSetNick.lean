/-
Property theorems: an AVR example which is told a new nickname over the bus takes it, stores it, and confirms that (C130).
-/
import Verif.Props.CanSetNick
import Verif.Props.AvrSys

namespace Vscp.Avr.Sys
open Vscp.Driver Vscp.Spec Vscp.Spec.AvrSys Vscp.Safety
open Vscp.Driver.CanNode (Around Res)

variable {s : Surr} {a : Nat → Around}

/-- An active example which is told a new nickname takes it. -/
theorem taken_op (k : Nat) {m : Msg} {v : U8} {w : W} (ha : w.v.st = .active) (hv : v ≠ 0) (hm : Request m 6 [w.v.nick, v]) :
    (stepOpC (s.ctx k) (s.cb k) (.process (some m)) w).2.v.st = .active ∧ (stepOpC (s.ctx k) (s.cb k) (.process (some m)) w).2.v.nick = v ∧
    (stepOpC (s.ctx k) (s.cb k) (.process (some m)) w).2.ps = (fun x => if x = Ps.addrNickname (s.ctx k) then v else w.ps x) := by
  obtain ⟨tp, ub, t, h1, -⟩ := AvrProps.cycle (sz := s.sz) (e := s.env k) (s.stack k) m w ha
  have hs := Steps.trans (Foot.mono (B := [.customHb, .tx, .tm .heartbeat, .alarm, .appRead, .ext]) (bad := True) (.activeHeartbeat (c := Avr.ctx s.sz (s.env k))) (by decide)
      { AvrProps.handled (Avr.ctx s.sz (s.env k)) m w with tp := tp, ub := ub, out := (AvrProps.handled (Avr.ctx s.sz (s.env k)) m w).out ++ t })
    (Foot.mono (bad := True) (.activeExtRead (c := Avr.ctx s.sz (s.env k))) (by decide) _)
  rw [← h1] at hs
  have e1 := hs.same .st (by decide)
  have e5 := hs.same .nick (by decide)
  have e6 := hs.same .ps (by decide)
  simp only [Comp.same] at e1 e5 e6
  have p1 : (preProcess (s.ctx k) (some m) w).2.v.st = w.v.st := pre_same _ _ _ .st (by decide)
  have p2 : (preProcess (s.ctx k) (some m) w).2.v.nick = w.v.nick := pre_same _ _ _ .nick (by decide)
  have p5 : (preProcess (s.ctx k) (some m) w).2.ps = w.ps := pre_same _ _ _ .ps (by decide)
  have hd := SetNick.handler_set (c := s.ctx k) (w := (preProcess (s.ctx k) (some m) w).2) (by rw [p2]; exact hm) hv
  have eh : (Core.handleProtocolClassType (s.ctx k) m (preProcess (s.ctx k) (some m) w).2).2 = AvrProps.handled (Avr.ctx s.sz (s.env k)) m w := by
    unfold AvrProps.handled
    rw [if_pos hm.cls]
  rw [eh, p1, p5] at hd
  obtain ⟨d1, d2, d3, -⟩ := hd
  exact ⟨e1.trans (d2.trans ha), e5.trans d1, e6.trans d3⟩

/-- C130: a frame on the bus which tells the active example a new nickname (other than 0): in the next step of the main loop the example takes this nickname, stores it in its EEPROM, changes nothing else there, stays active
and sends the confirmation as the node with the new nickname. -/
theorem C130_example {past : List Out} {n : Nat} {ps : Nat → U8} {ctl : CanDrv.State} {l : List Move} (hl : ∀ mv ∈ l, AvrSys.Ok mv) {y : State} (hr : run s a l (boot s past n ps ctl) = .ok y)
    (htx : ∀ k, (s.env y.fw.life).txOk k = true) (ha : y.fw.w.v.st = .active) (hpc : y.pc = .process) (hu : y.x.2.stored.length = y.heard.length) {prio v origin : U8} {hard : Bool} (hp : prio.toNat < 8) (hv : v ≠ 0)
    {y1 : State} (hr1 : run s a [.rx (Spec.CanNode.protocol prio hard 6 origin [y.fw.w.v.nick, v]), .step] y = .ok y1) :
    y1.fw.life = y.fw.life ∧ y1.fw.w.v.st = .active ∧ y1.fw.w.v.nick = v ∧ y1.fw.w.ps = (fun x => if x = 0 then v else y.fw.w.ps x) ∧
    ∃ t, y1.fw.w.out = y.fw.w.out ++ t ∧ .tx (event (s.ctx y.fw.life) v 7 7 []) true ∈ t := by
  have hi := inv_of (boot_inv past n ps ctl) hl hr
  have h8 : [y.fw.w.v.nick, v].length ≤ 8 := by simp
  have hva := CanNode.protocol_valid (prio := prio) (typ := 6) (origin := origin) (hard := hard) hp h8
  obtain ⟨m, x, hcar, hm, rfl, -⟩ := got_frame hi (by rw [ha]; decide) hpc hu hva hr1
  have hreq := CanNode.carries_protocol hp h8 hcar
  obtain ⟨q1, q2, q3⟩ := taken_op (s := s) y.fw.life ha hv hreq
  exact ⟨rfl, q1, q2, q3, CanSegment.cycle_confirms (AvrProps.cb_ok _ : CbOk (s.cb y.fw.life)) (c := s.ctx y.fw.life) rfl rfl htx ha hi.good.lb hv hreq hm⟩

/-- The example is told the nickname 9. -/
def exTell : List Move := [.rx (Spec.CanNode.protocol 3 false 6 1 [5, 9]), .step]

/-- The hypotheses of `C130_example` are met by the example with the nickname 5; and when its power fails and comes back behind that, it is active with the nickname 9 in the first step. -/
example : (∀ mv ∈ exMs false ++ exTell, AvrSys.Ok mv) ∧ (∀ n k, (AvrProps.exSurr.env n).txOk k = true) ∧ (match exHist (exMs false), exHist (exMs false ++ exTell), exHist (exMs false ++ exTell ++ [.power, .step]) with
    | .ok y, .ok y1, .ok y2 => decide (y.fw.w.v.st = .active ∧ y.pc = .process ∧ y.x.2.stored.length = y.heard.length ∧ y.fw.w.v.nick = 5 ∧ y1.fw.w.v.nick = 9 ∧ y2.fw.life = 1 ∧ y2.fw.w.v.st = .active ∧ y2.fw.w.v.nick = 9)
    | _, _, _ => false) = true := by
  refine ⟨?_, fun _ _ => rfl, by decide +kernel⟩
  simp [exTell, exMs, AvrSys.Ok, Spec.CanDrv.Valid, Spec.CanNode.protocol]

end Vscp.Avr.Sys
