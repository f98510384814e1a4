/-
Specification of the behaviour of a node in its states: what events ask for, and the time which passes in a history.
-/
import Verif.Model.Node
import Verif.Spec.Registers

namespace Vscp.Spec

/-- The event writes `v` to the restore register (page 0, address 0xA2) of the node with the given nickname, by a
register write, or by a page write or extended page write whose range covers the register. -/
def restoreWrite (m : Msg) (nick v : U8) : Prop :=
  m.cls = 0 ∧ (payload m)[0]? = some nick ∧
  ((m.typ = 11 ∧ payload m = [nick, 0xA2, v]) ∨
   (m.typ = 25 ∧ ∃ (a : U8) (i : Nat), (payload m)[1]? = some a ∧ a.toNat + i = 0xA2 ∧ (payload m)[2 + i]? = some v) ∨
   (m.typ = 38 ∧ (payload m)[1]? = some 0 ∧ (payload m)[2]? = some 0 ∧
      ∃ (a : U8) (i : Nat), (payload m)[3]? = some a ∧ a.toNat + i = 0xA2 ∧ (payload m)[4 + i]? = some v))

/-- The event drops the nickname of the node, with the option to load the factory settings. -/
def dropWithDefaults (m : Msg) (nick : U8) : Prop :=
  m.cls = 0 ∧ m.typ = 8 ∧ ∃ (f : U8), f.getLsbD 6 = true ∧ (payload m = [nick, f] ∨ ∃ t, payload m = [nick, f, t])

/-- The node is active and receives the event in this cycle (from the adapter, or out of the loopback queue, see C25), and
the application does not handle it itself as a protocol event. -/
def Takes (c : Ctx) (rx : Option Msg) (w : W) (m : Msg) : Prop :=
  w.v.st = .active ∧ (Transport.readMessage c rx w).1 = some m ∧ (c.protoNotify = true → c.protoHandled w.out.length = false)

/-- Types of the protocol events which are addressed to one node by the first data byte: set and drop nickname, read and write
register, enter boot loader, page read and write, increment and decrement register, who is there, get decision matrix info, extended page read
and write. -/
def addressed : List U8 := [6, 8, 9, 11, 12, 24, 25, 29, 30, 31, 33, 37, 38]

/-- The event is addressed to the node.  "Who is there" can be addressed to all nodes. -/
def concerns (m : Msg) (nick : U8) : Prop :=
  (payload m)[0]? = some nick ∨ (m.typ = 31 ∧ (payload m)[0]? = some 0xFF)

/-- The data bytes of an event which starts the boot loader: the nickname, the algorithm, four bytes of the GUID (the most
significant one is byte 15) and the selected page. -/
def bootRequest (c : Ctx) (w : W) : List U8 :=
  [w.v.nick, c.bootAlgo, (DevData.getGuid c 15 w).1, (DevData.getGuid c 12 w).1, (DevData.getGuid c 10 w).1,
   (DevData.getGuid c 8 w).1, BitVec.ofNat 8 (w.v.page.toNat / 256), BitVec.ofNat 8 (w.v.page.toNat % 256)]

/-- Calls of the interface which make no call into other code by themselves. -/
def calm : Op → Prop
  | .process _ | .tick _ | .setAlarm _ | .setTime _ | .enableHeartbeat _ | .getTransmitErrors | .loggerEnable _ | .loggerLevel _ => True
  | _ => False

/-- Cycles: some milliseconds pass, then `vscp_core_process` is called. -/
def rounds (l : List (Nat × Option Msg)) : List Op := l.flatMap fun x => [.tick x.1, .process x.2]

/-- The milliseconds which pass in a history. -/
def elapsed : List Op → Nat
  | [] => 0
  | .tick ms :: ops => ms + elapsed ops
  | _ :: ops => elapsed ops

/-- The node receives the event in this cycle and listens to GUID drop events: it is active, or it is silent and waits for a nickname. -/
def Hears (c : Ctx) (rx : Option Msg) (w : W) (m : Msg) : Prop :=
  Takes c rx w m ∨ (c.silent = true ∧ w.v.st = .startup ∧ w.v.nick = 0xFF ∧ (Transport.readMessage c rx w).1 = some m)

/-- The event is the frame with number `k` of a GUID drop, with four bytes of the GUID of the node, the most significant one (byte 15) first. -/
def guidFrame (c : Ctx) (w : W) (m : Msg) (k : Nat) : Prop :=
  Request m 23 (BitVec.ofNat 8 k :: (List.range 4).map fun i => (DevData.getGuid c (15 - 4 * k - i) w).1)

end Vscp.Spec
