/-
The CAN driver of the AVR example (AT90CAN128) with the part of the controller it works with.
-/
import Verif.Model.Driver

namespace Vscp.Driver.CanDrv

/-- The registers of one message object of the controller: CANSTMOB, CANCDMOB, CANIDT1-4, CANIDM1-4, the eight bytes behind CANMSG, and its bit in CANEN1/2. -/
structure Mob where
  st : U8
  cd : U8
  idt1 : U8
  idt2 : U8
  idt3 : U8
  idt4 : U8
  idm1 : U8
  idm2 : U8
  idm3 : U8
  idm4 : U8
  msg : Vector U8 8
  en : Bool
deriving DecidableEq

/-- examples/avr/at90can/driver/canDrv.h:237-242 `CANMsg` -/
structure Frame where
  id : U32
  len : U8
  flags : U8
  byte : Vector U8 8
deriving DecidableEq

/-- What goes over the bus: the identifier has 29 (extended) or 11 bit, `dlc` is the length code, `data` the bytes behind it. -/
structure BusFrame where
  ext : Bool
  rtr : Bool
  id : Nat
  dlc : U8
  data : List U8
deriving DecidableEq

/-- The window to the selected message object: examples/avr/at90can/driver/canDrv.h:202 `setMob` writes CANPAGE, which selects the message object and sets the index
of CANMSG to 0; each access to CANMSG increments the index (3 bit). -/
structure Win where
  mob : Mob
  indx : Fin 8

/-- Access to CANMSG: write. -/
def putMsg (w : Win) (b : U8) : Win := { mob := { w.mob with msg := w.mob.msg.set w.indx b }, indx := w.indx + 1 }

/-- Write access to CANCDMOB: the message object is enabled if and only if one of the bits CONMOB is set. -/
def putCd (w : Win) (v : U8) : Win := { w with mob := { w.mob with cd := v, en := decide (v &&& 0xC0 ≠ 0) } }

/-- examples/avr/at90can/driver/canDrv.c:39-58 `clrMob` behind the selection of the message object -/
def clr (w : Win) : Win :=
  let w := { w with mob := { w.mob with st := 0 } }
  let w := putCd w 0
  let w := { w with mob := { w.mob with idt4 := 0, idt3 := 0, idt2 := 0, idt1 := 0, idm4 := 0, idm3 := 0, idm2 := 0, idm1 := 0 } }
  (List.replicate 8 (0 : U8)).foldl putMsg w

/-- The controller: message objects, and is it running (ENASTB)? -/
structure State where
  mobs : Vector Mob 15
  on : Bool

/-- Work with message object `k`. -/
def withMob (k : Fin 15) (f : Win → Win) (s : State) : State := { s with mobs := s.mobs.set k (f ⟨s.mobs[k], 0⟩).mob }

/-- examples/avr/at90can/driver/canDrv.c:39-58 `clrMob` -/
def clrMob (k : Fin 15) (s : State) : State := withMob k clr s

/-- examples/avr/at90can/driver/canDrv.c:64-71 `clrAllMob` -/
def clrAllMob (s : State) : State := (List.finRange 15).foldl (fun s k => clrMob k s) s

/-- Does the message object wait for its transmission? -/
def Mob.pending (m : Mob) : Bool := m.en && (m.cd &&& 0xC0 == 0x40)

/-- What the controller sends out of a message object: its identifier tag, length code and bytes (a remote frame has no bytes). -/
def Mob.toBus (m : Mob) : BusFrame where
  ext := m.cd &&& 0x10 ≠ 0
  rtr := m.idt4 &&& 0x04 ≠ 0
  id := if m.cd &&& 0x10 ≠ 0 then m.idt1.toNat * 2 ^ 21 + m.idt2.toNat * 2 ^ 13 + m.idt3.toNat * 2 ^ 5 + m.idt4.toNat / 8
    else m.idt1.toNat * 8 + m.idt2.toNat / 32
  dlc := m.cd &&& 0x0F
  data := if m.idt4 &&& 0x04 ≠ 0 then [] else m.msg.toList.take (m.cd &&& 0x0F).toNat

/-- The controller: the lowest message object which waits for its transmission is sent, TXOK (bit 6 of CANSTMOB) is set, and the message object is disabled (CANEN);
CANCDMOB is unchanged (AT90CAN128 data sheet, "Tx Data & Remote Frame", "Priority").  Nothing happens if none waits or the controller does not run. -/
def tx (s : State) : State × Option BusFrame :=
  if s.on then
    match (List.finRange 15).find? (fun k => s.mobs[k].pending) with
    | some k => ({ s with mobs := s.mobs.set k { s.mobs[k] with st := s.mobs[k].st ||| 0x40, en := false } }, some s.mobs[k].toBus)
    | none => (s, none)
  else (s, none)

/-- `n` transmissions. -/
def txs : Nat → State → State × List BusFrame
  | 0, s => (s, [])
  | n + 1, s =>
    let r := tx s
    let q := txs n r.1
    (q.1, r.2.toList ++ q.2)

/-- The identifier tag of a frame: CANIDT1-4. -/
def tagOf (b : BusFrame) : U8 × U8 × U8 × U8 :=
  let r : U8 := if b.rtr then 0x04 else 0
  if b.ext then (BitVec.ofNat 8 (b.id / 2 ^ 21), BitVec.ofNat 8 (b.id / 2 ^ 13), BitVec.ofNat 8 (b.id / 2 ^ 5), BitVec.ofNat 8 (b.id * 8) ||| r)
  else (BitVec.ofNat 8 (b.id / 8), BitVec.ofNat 8 (b.id * 32), 0, r)

/-- Acceptance filter of a message object: identifier tag and mask; bit 0 of CANIDM4 compares the format. -/
def Mob.accepts (m : Mob) (b : BusFrame) : Bool :=
  let t := tagOf b
  ((t.1 ^^^ m.idt1) &&& m.idm1 == 0) && ((t.2.1 ^^^ m.idt2) &&& m.idm2 == 0) && ((t.2.2.1 ^^^ m.idt3) &&& m.idm3 == 0) &&
    ((t.2.2.2 ^^^ m.idt4) &&& m.idm4 &&& 0xFC == 0) && (m.idm4 &&& 0x01 == 0 || (b.ext == decide (m.cd &&& 0x10 ≠ 0)))

/-- The bytes of a frame in a message object. -/
def store (b : BusFrame) (old : Vector U8 8) : Vector U8 8 := Vector.ofFn fun i => if h : i.val < b.data.length then b.data[i.val] else old[i]

/-- A message object behind the reception of a frame. -/
def Mob.received (m : Mob) (b : BusFrame) : Mob :=
  { m with
    st := m.st ||| 0x20
    cd := (m.cd &&& 0xE0) ||| (if b.ext then 0x10 else 0) ||| (b.dlc &&& 0x0F)
    idt1 := (tagOf b).1
    idt2 := (tagOf b).2.1
    idt3 := (tagOf b).2.2.1
    idt4 := (tagOf b).2.2.2
    msg := store b m.msg
    en := false }

/-- The controller: a frame comes over the bus.  Simplification: message object 0 is the only one for reception (CONMOB = 10), which is how the driver uses it.
If it is enabled and its filter accepts the frame, identifier tag, format, length code and bytes are stored, RXOK (bit 5 of CANSTMOB) is set and the message object is
disabled; otherwise the frame is lost for this node. -/
def rx (b : BusFrame) (s : State) : State × Bool :=
  let m := s.mobs[0]
  if s.on ∧ m.en ∧ m.cd &&& 0xC0 = 0x80 ∧ m.accepts b then
    ({ s with mobs := s.mobs.set 0 (m.received b) }, true)
  else (s, false)

/-- examples/avr/at90can/driver/canDrv.c:82-103 `getFreeMob` from message object `k` on.  The controller works at the same time: `hw k` transmissions end in front of the
look at message object `k`; they are returned, too.  `none`: ERROR_BUFFER_FULL. -/
def search (hw : Nat → Nat) (k : Nat) (s : State) : Option (Fin 15) × State × List BusFrame :=
  if h : k < 15 then
    let r := txs (hw k) s
    let m := r.1.mobs[k]
    if m.cd &&& 0xC0 = 0 then (some ⟨k, h⟩, r)
    else if m.st &&& 0x40 ≠ 0 then (some ⟨k, h⟩, r)
    else
      let q := search hw (k + 1) r.1
      (q.1, q.2.1, r.2 ++ q.2.2)
  else (none, s, [])
termination_by 15 - k

/-- examples/avr/at90can/driver/canDrv.c:82-103 `getFreeMob` -/
def getFreeMob (hw : Nat → Nat) (s : State) : Option (Fin 15) × State × List BusFrame := search hw 1 s

/-- examples/avr/at90can/driver/canDrv.c:223-278 `can_SendFrame` behind the selection of the message object, for a length up to 8 -/
def fill (f : Frame) (w : Win) : Win :=
  let w := clr w
  let w :=
    if f.flags &&& 0x01 ≠ 0 then
      let w := putCd w (0x10 + (f.len &&& 0x0F))
      let w := { w with mob := { w.mob with idt4 :=
        if f.flags &&& 0x04 ≠ 0 then ((f.id &&& 0x1F) <<< 3).setWidth 8 ||| 0x04 else ((f.id &&& 0x1F) <<< 3).setWidth 8 } }
      { w with mob := { w.mob with
        idt3 := ((f.id >>> 5) &&& 0xFF).setWidth 8
        idt2 := ((f.id >>> 13) &&& 0xFF).setWidth 8
        idt1 := ((f.id >>> 21) &&& 0xFF).setWidth 8 } }
    else
      let w := putCd w (f.len &&& 0x0F)
      let w := if f.flags &&& 0x02 ≠ 0 then { w with mob := { w.mob with idt4 := 0x04 } } else w
      { w with mob := { w.mob with idt2 := ((f.id &&& 0x07) <<< 5).setWidth 8, idt1 := (f.id >>> 3).setWidth 8 } }
  let w := (f.byte.toList.take f.len.toNat).foldl putMsg w
  putCd w (w.mob.cd ||| 0x40)

/-- The result of a driver function. -/
inductive Ret where
  | ok
  | full
  | empty
  | bitrate
deriving DecidableEq

/-- examples/avr/at90can/driver/canDrv.c:223-278 `can_SendFrame`; outer `none`: access behind the end of the bytes of the frame.  Simplification: while the free
message object is filled, no transmission ends (it is disabled, the controller does not look at it). -/
def sendFrame (f : Frame) (hw : Nat → Nat) (s : State) : Option (Ret × State × List BusFrame) :=
  match getFreeMob hw s with
  | (none, s, o) => some (.full, s, o)
  | (some k, s, o) => if f.len.toNat ≤ 8 then some (.ok, withMob k (fill f) s, o) else none

/-- examples/avr/at90can/driver/canDrv.c:284-330 `can_readFrame`; `old` is the storage of the caller.  Outer `none`: access behind the end of the bytes of the frame. -/
def readFrame (old : Frame) (s : State) : Option (Ret × Frame × State) :=
  let m := s.mobs[0]
  if m.st &&& 0x20 = 0 then some (.empty, old, s)
  else
    let flags : U8 := if m.idt4 &&& 0x04 ≠ 0 then 0x02 else 0
    let len := m.cd &&& 0x0F
    if len.toNat ≤ 8 then
      some (.ok, {
        flags := if m.cd &&& 0x10 ≠ 0 then flags ||| 0x01 else flags
        id := if m.cd &&& 0x10 ≠ 0 then
            ((m.idt1.setWidth 32 : U32) <<< 21) + ((m.idt2.setWidth 32 : U32) <<< 13) + ((m.idt3.setWidth 32 : U32) <<< 5) +
              (((m.idt4 >>> 3) &&& 0x1F).setWidth 32 : U32)
          else ((m.idt1.setWidth 32 : U32) <<< 3) + (((m.idt2 >>> 5) &&& 0x07).setWidth 32 : U32)
        len := len
        byte := Vector.ofFn fun i => if i.val < len.toNat then m.msg[i] else old.byte[i] },
        withMob 0 (fun w => let w := clr w; putCd w (w.mob.cd ||| 0x80)) s)
    else none

/-- examples/avr/at90can/driver/canDrv.c:111-201 `can_Open`: the bit rate is known or not (`known`); the bit timing itself is not modelled. -/
def canOpen (known : Bool) (s : State) : Ret × State :=
  if known then
    let s := clrAllMob s
    let s := withMob 0 (fun w => putCd w (w.mob.cd ||| 0x80)) s
    (.ok, { s with on := true })
  else (.bitrate, s)

/-- examples/avr/at90can/driver/canDrv.c:210-214 `can_Close` -/
def canClose (s : State) : State := { s with on := false }

/-- examples/avr/at90can/driver/canDrv.c:346-362 `can_setFilter` -/
def setFilter (f0 f1 f2 f3 : U8) (s : State) : State :=
  withMob 0 (fun w => { w with mob := { w.mob with idt1 := f0, idt2 := f1, idt3 := f2, idt4 := f3 } }) s

/-- examples/avr/at90can/driver/canDrv.c:368-384 `can_setMask` -/
def setMask (m0 m1 m2 m3 : U8) (s : State) : State :=
  withMob 0 (fun w => { w with mob := { w.mob with idm1 := m0, idm2 := m1, idm3 := m2, idm4 := m3 } }) s

/-! ### Histories -/

/-- What may happen behind `can_Open`: the application sends or reads a frame, a transmission ends, a frame comes over the bus. -/
inductive Move where
  | send (f : Frame) (hw : Nat → Nat)
  | tx
  | rx (b : BusFrame)
  | read (old : Frame)

/-- What can be seen of a history: the frames which were taken for transmission, the frames which this node sent over the bus, the frames which came over the bus and
were stored by the controller, and the frames which were read. -/
structure Trace where
  taken : List Frame
  wire : List BusFrame
  stored : List BusFrame
  got : List Frame
deriving DecidableEq

/-- One move; `none`: undefined behaviour. -/
def move (x : State × Trace) : Move → Option (State × Trace)
  | .send f hw =>
    (sendFrame f hw x.1).map fun r => (r.2.1, { x.2 with taken := if r.1 = .ok then x.2.taken ++ [f] else x.2.taken, wire := x.2.wire ++ r.2.2 })
  | .tx => let r := tx x.1; some (r.1, { x.2 with wire := x.2.wire ++ r.2.toList })
  | .rx b => let r := rx b x.1; some (r.1, if r.2 then { x.2 with stored := x.2.stored ++ [b] } else x.2)
  | .read old => (readFrame old x.1).map fun r => (r.2.2, if r.1 = .ok then { x.2 with got := x.2.got ++ [r.2.1] } else x.2)

/-- A history. -/
def run : List Move → State × Trace → Option (State × Trace)
  | [], x => some x
  | m :: l, x => (move x m).bind (run l)

/-- Behind `can_Open` with a known bit rate, whatever the registers were. -/
def start (s : State) : State × Trace := ((canOpen true s).2, ⟨[], [], [], []⟩)

end Vscp.Driver.CanDrv
