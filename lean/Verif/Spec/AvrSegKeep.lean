/-
Why an AVR example on a CAN bus gives up its nickname.
-/
import Verif.Spec.AvrKeep
import Verif.Spec.AvrSegment
import Verif.Spec.AvrSegBeat
import Verif.Spec.Answers

namespace Vscp.Spec.CanSegment
open Vscp.Driver

/-- The frame carries an event of class 0 and type `k`. -/
def Tells (k : U8) (b : CanDrv.BusFrame) : Prop := b.id / 2 ^ 8 % 2 ^ 17 = k.toNat

end Vscp.Spec.CanSegment

namespace Vscp.Spec.AvrSegment
open Vscp.Driver Vscp.Avr Vscp.Avr.Sys Vscp.Spec.AvrSys

/-- Something else than the examples sends the frame in the history: the controller of an example sees it. -/
def Foreign {ι : Type} (l : List (Move ι)) (b : CanDrv.BusFrame) : Prop := ∃ i, .own i (.rx b) ∈ l

/-- The types of the events which take the nickname from an example and do not come from examples: set and drop the nickname, drop by the GUID, and the writes of registers (with which the factory settings can be restored). -/
def taking : List U8 := [6, 8, 23, 11, 25, 29, 30, 38]

/-- Why example `d` gives up the nickname `q` in a move behind the history `l`, which begins at `s0`: its power fails; its button was held for the last 101 ms; it hears the answer of an example which has used the
nickname; it hears the answer of something else than the examples under its nickname; or it hears an event which something else than the examples has sent. -/
inductive Cause {ι : Type} [DecidableEq ι] (p : Parts ι) (s0 : Segment ι) (l : List (Move ι)) (s s' : Segment ι) (d : ι) (q : U8) (mv : Move ι) : Prop
  | power (h : mv = .own d .power)
  | button (h : mv = .own d .step) (hb : ∃ x, button (mine d l) = x ++ List.replicate 101 true) (hs : (s'.node d).fw.w.v.st = .init)
  | example (m : Msg) (h : mv = .own d .step) (hh : (s'.node d).heard = (s.node d).heard ++ [m]) (hm : m.cls = 0 ∧ m.typ = 3 ∧ m.oAddr = q) (a : ι) (ha : a ≠ d)
      (hu : ∃ pre post s1, l = pre ++ post ∧ run p pre s0 = .ok s1 ∧ uses (s1.node a).fw.w q)
  | answer (m : Msg) (h : mv = .own d .step) (hh : (s'.node d).heard = (s.node d).heard ++ [m]) (hm : m.cls = 0 ∧ m.typ = 3 ∧ m.oAddr = q) (b : CanDrv.BusFrame)
      (hb : Foreign l b ∧ CanSegment.Answers b q)
  | foreign (m : Msg) (h : mv = .own d .step) (hh : (s'.node d).heard = (s.node d).heard ++ [m]) (hm : m.cls = 0 ∧ m.typ ∈ taking) (b : CanDrv.BusFrame)
      (hb : Foreign l b ∧ CanSegment.Tells m.typ b) (hd : Dismissed (s.node d).fw.w (s'.node d).fw.w m)

/-- Something else than the examples sends neither answers to probes under the nickname nor events which take nicknames. -/
def Harmless {ι : Type} (q : U8) (l : List (Move ι)) : Prop := ∀ b, Foreign l b → ¬CanSegment.Answers b q ∧ ∀ k ∈ taking, ¬CanSegment.Tells k b

end Vscp.Spec.AvrSegment
