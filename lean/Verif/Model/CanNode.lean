/-
A node on the CAN bus, as in the AVR example: framework and application (Model/Callout), the transport adapter, the CAN driver and the controller
(Model/CanDrv) together.  The adapter does not deliver anything and does not succeed or fail by chance here: it does what driver and controller make of it.
-/
import Verif.Model.CanDrv
import Verif.Model.Callout

namespace Vscp.Driver.CanNode

/-- examples/avr/at90can/driver/canDrv.h:237-242 `CANMsg`: the two views of it, flags: extended (bit 0), remote (bit 1) -/
def toDrv (f : Can.Frame) : CanDrv.Frame := ⟨f.id, f.len, (if f.extended then 0x01 else 0) ||| (if f.rtr then 0x02 else 0), f.byte⟩

/-- examples/avr/at90can/driver/canDrv.h:237-242 `CANMsg`, likewise -/
def ofDrv (f : CanDrv.Frame) : Can.Frame := ⟨f.id, f.len, f.flags.getLsbD 0, f.flags.getLsbD 1, f.byte⟩

/-- What driver and controller do: their state and what can be seen of them. -/
abbrev Drv := CanDrv.State × CanDrv.Trace

/-- The do-while loop of examples/avr/at90can/vscp_user/vscp_tp_adapter.c:169-185; `hw a` are the transmissions which end during attempt `a`
(see `CanDrv.search`).  Simplification: during the wait time between two attempts no transmission ends (it may end at the begin of the next attempt).
`none`: undefined behaviour. -/
def sendLoop (f : CanDrv.Frame) (hw : Nat → Nat → Nat) (retryCnt : Nat) (x : Drv) : Option (Bool × Drv) :=
  match CanDrv.sendFrame f (hw retryCnt) x.1, CanDrv.move x (.send f (hw retryCnt)) with
  | some r, some x =>
    if r.1 = .ok then some (true, x)
    else if h : retryCnt + 1 < 3 then sendLoop f hw (retryCnt + 1) x else some (false, x)
  | _, _ => none
termination_by 3 - retryCnt

/-- examples/avr/at90can/vscp_user/vscp_tp_adapter.c:143-195 `vscp_tp_adapter_writeMessage` -/
def writeMessage (m : Msg) (stack : Vector U8 8) (hw : Nat → Nat → Nat) (x : Drv) : Option (Bool × Drv) :=
  match Can.writeFrame m stack with
  | none => some (false, x)
  | some f => sendLoop (toDrv f) hw 0 x

/-- examples/avr/at90can/vscp_user/vscp_tp_adapter.c:104-133 `vscp_tp_adapter_readMessage`; `old` is the storage of the caller, `stack` the uninitialised
local variable.  `none`: undefined behaviour. -/
def readMessage (stack : CanDrv.Frame) (old : Msg) (x : Drv) : Option (Option Msg × Drv) :=
  match CanDrv.readFrame stack x.1, CanDrv.move x (.read stack) with
  | some r, some x =>
    if r.1 = .ok then
      match Can.readMessage (ofDrv r.2.1) old with
      | some m => some (some m, x)
      | none => none
    else some (none, x)
  | _, _ => none

/-- What is left open: uninitialised variables and the progress of the controller while the driver works, for the call of the adapter which is number `n` in
the trace of the node. -/
structure Around where
  wstack : Nat → Vector U8 8
  rstack : Nat → CanDrv.Frame
  old : Nat → Msg
  hw : Nat → Nat → Nat → Nat

/-- A node: the framework, driver and controller, and the events which were delivered to the framework so far. -/
structure Node where
  w : W
  x : Drv
  heard : List Msg

/-- The outcome of a history.  The results of the adapter are part of the framework's surroundings (`Ctx.txOk`); `impossible` is a history in which they are not those of
the driver. -/
inductive Res (α : Type)
  | ub
  | impossible
  | ok (a : α)

/-- The calls of the adapter in a piece of the trace, which starts at position `n`. -/
def feed (a : Around) : Nat → List Out → Drv → Res Drv
  | _, [], x => .ok x
  | n, .tx m r :: t, x =>
    match writeMessage m (a.wstack n) (a.hw n) x with
    | none => .ub
    | some (r', x) => if r' = r then feed a (n + 1) t x else .impossible
  | n, _ :: t, x => feed a (n + 1) t x

/-- What can happen: a cycle of the framework, another call, a frame of another node on the bus, the controller sends a frame. -/
inductive Move
  | cycle
  | call (op : Op)
  | rx (b : CanDrv.BusFrame)
  | tx

/-- A call of the framework. -/
def callFw (c : Ctx) (cb : Callbacks) (a : Around) (op : Op) (n : Node) : Res Node :=
  let w := (stepOpC c cb op n.w).2
  match feed a n.w.out.length (w.out.drop n.w.out.length) n.x with
  | .ok x => .ok { n with w, x }
  | .ub => .ub
  | .impossible => .impossible

/-- The effect of a move.  In a cycle the adapter is asked once (src/vscp_transport.c:123-175). -/
def move (c : Ctx) (cb : Callbacks) (a : Around) (n : Node) : Move → Res Node
  | .cycle =>
    match readMessage (a.rstack n.w.out.length) (a.old n.w.out.length) n.x with
    | none => .ub
    | some (m, x) => callFw c cb a (.process m) { n with x, heard := n.heard ++ m.toList }
  | .call op => callFw c cb a op n
  | .rx b => .ok { n with x := let r := CanDrv.rx b n.x.1; (r.1, if r.2 then { n.x.2 with stored := n.x.2.stored ++ [b] } else n.x.2) }
  | .tx => .ok { n with x := let r := CanDrv.tx n.x.1; (r.1, { n.x.2 with wire := n.x.2.wire ++ r.2.toList }) }

/-- A history. -/
def run (c : Ctx) (cb : Callbacks) (a : Around) : List Move → Node → Res Node
  | [], n => .ok n
  | mv :: l, n =>
    match move c cb a n mv with
    | .ok n => run c cb a l n
    | .ub => .ub
    | .impossible => .impossible

/-- Power on: `vscp_core_init`, which opens the driver (examples/avr/at90can/vscp_user/vscp_tp_adapter.c:88-94 `vscp_tp_adapter_init`), whatever the registers of
the controller were. -/
def boot (c : Ctx) (cb : Callbacks) (ok : Tmr → Bool) (ps : Nat → U8) (s : CanDrv.State) : Node :=
  ⟨(stepOpC c cb (.init ok) (powerUp ps)).2, CanDrv.start s, []⟩

end Vscp.Driver.CanNode
