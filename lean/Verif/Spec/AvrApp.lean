/-
Specification of the application of the AVR example, from examples/avr/at90can/mdf/exp01.xml: registers, actions and events.
-/
import Verif.Spec.Registers

namespace Vscp.Spec.Avr

/-- An application register on page 0 behind the calls `t`: the last accepted write, or the factory setting. -/
def regAfter (addr : U8) : U8 → List Out → U8
  | z, [] => z
  | z, .appWrite p a v _ :: t => regAfter addr (if p = 0 ∧ a = addr then v else z) t
  | _, .appRestore :: t => regAfter addr 0xFF t
  | z, _ :: t => regAfter addr z t

/-- A CLASS1.INFORMATION event (type 3: on, type 4: off) of a node, for index 0 and all zones. -/
structure Info (typ nick : U8) (e : Msg) : Prop where
  cls : e.cls = 20
  typ : e.typ = typ
  prio : e.prio = 3
  origin : e.oAddr = nick
  hard : e.hard = false
  data : payload e = [0, 0xFF, 0xFF]

/-- `t` are the actions `l`, those with number 1 and 2 directly followed by the transmission of their event. -/
inductive Reacts (nick : U8) : List Out → List Out → Prop
  | nil : Reacts nick [] []
  | on {l t : List Out} {p : U8} {m e : Msg} {r : Bool} (h : Info 3 nick e) (ht : Reacts nick l t) :
    Reacts nick (.action 1 p m :: l) (.action 1 p m :: .tx e r :: t)
  | off {l t : List Out} {p : U8} {m e : Msg} {r : Bool} (h : Info 4 nick e) (ht : Reacts nick l t) :
    Reacts nick (.action 2 p m :: l) (.action 2 p m :: .tx e r :: t)
  | other {l t : List Out} {a p : U8} {m : Msg} (h1 : a ≠ 1) (h2 : a ≠ 2) (ht : Reacts nick l t) :
    Reacts nick (.action a p m :: l) (.action a p m :: t)

/-- Each action 1 and 2 is directly followed by the transmission of its event. -/
def Answered (t : List Out) : Prop := ∀ pre a p m post, t = pre ++ .action a p m :: post →
  (a = 1 → ∃ e r post', post = .tx e r :: post' ∧ Info 3 e.oAddr e) ∧
  (a = 2 → ∃ e r post', post = .tx e r :: post' ∧ Info 4 e.oAddr e)

/-- What an action does with the status LED: switch it on, switch it off, or nothing. -/
def switch : Out → Option Bool
  | .action 1 _ _ => some true
  | .action 2 _ _ => some false
  | _ => none

/-- The status LED after the actions `l`: as the last action which switches it says. -/
def ledThen (lit : Bool) (l : List Out) : Bool := (l.filterMap switch).getLast?.getD lit

end Vscp.Spec.Avr
