/-
Drivers of the examples: timer driver, software timers, clock, CAN adapter.
-/
import Verif.Model.World

namespace Vscp.Driver

/-! ### Timer driver of the framework (examples/avr/at90can/vscp_user/vscp_timer.c, the same for examples/arm) -/

namespace Timer

/-- examples/avr/at90can/vscp_user/vscp_timer.c:77-82 `vscp_timer_Timer` -/
structure Slot where
  id : U8
  value : U16
deriving DecidableEq

/-- examples/avr/at90can/vscp_user/vscp_timer.c:93 `vscp_timer_context`; the number of timers is 4 or 5
(examples/avr/at90can/vscp_user/vscp_timer.c:51-66), here any number. -/
abbrev State (n : Nat) := Vector Slot n

/-- vscp_timer.h `VSCP_TIMER_ID_INVALID` -/
def INVALID : U8 := 0xFF

/-- The loop of examples/avr/at90can/vscp_user/vscp_timer.c:113-116. -/
def initLoop {n : Nat} (i : Nat) (s : State n) : State n :=
  if h : i < n then initLoop (i + 1) (s.set i { s[i] with id := INVALID }) else s
termination_by n - i

/-- examples/avr/at90can/vscp_user/vscp_timer.c:106-119 `vscp_timer_init` -/
def init {n : Nat} (_ : State n) : State n := initLoop 0 (Vector.replicate n ⟨0, 0⟩)

/-- The loop of examples/avr/at90can/vscp_user/vscp_timer.c:134-145. -/
def createLoop {n : Nat} (i : Nat) (s : State n) : U8 × State n :=
  if h : i < n then
    if s[i].id = INVALID then (BitVec.ofNat 8 i, s.set i { s[i] with id := BitVec.ofNat 8 i })
    else createLoop (i + 1) s
  else (INVALID, s)
termination_by n - i

/-- examples/avr/at90can/vscp_user/vscp_timer.c:128-148 `vscp_timer_create` -/
def create {n : Nat} (s : State n) : U8 × State n := createLoop 0 s

/-- examples/avr/at90can/vscp_user/vscp_timer.c:157-165 `vscp_timer_start` -/
def start {n : Nat} (id : U8) (v : U16) (s : State n) : State n :=
  if h : id.toNat < n then s.set id.toNat { s[id.toNat] with value := v } else s

/-- examples/avr/at90can/vscp_user/vscp_timer.c:172-180 `vscp_timer_stop` -/
def stop {n : Nat} (id : U8) (s : State n) : State n :=
  if h : id.toNat < n then s.set id.toNat { s[id.toNat] with value := 0 } else s

/-- examples/avr/at90can/vscp_user/vscp_timer.c:190-203 `vscp_timer_getStatus` -/
def getStatus {n : Nat} (id : U8) (s : State n) : Bool :=
  if h : id.toNat < n then decide (0 < s[id.toNat].value.toNat) else false

/-- The body of the loop of examples/avr/at90can/vscp_user/vscp_timer.c:217-228. -/
def tick (p : U16) (t : Slot) : Slot :=
  if t.id ≠ INVALID then { t with value := if p ≤ t.value then t.value - p else 0 } else t

/-- The loop of examples/avr/at90can/vscp_user/vscp_timer.c:215-229. -/
def processLoop {n : Nat} (p : U16) (i : Nat) (s : State n) : State n :=
  if h : i < n then processLoop p (i + 1) (s.set i (tick p s[i])) else s
termination_by n - i

/-- examples/avr/at90can/vscp_user/vscp_timer.c:210-232 `vscp_timer_process` -/
def process {n : Nat} (p : U16) (s : State n) : State n := processLoop p 0 s

/-- The calls of the driver behind the initialisation. -/
inductive Op
  | create
  | start (id : U8) (v : U16)
  | stop (id : U8)
  | process (p : U16)
deriving DecidableEq

/-- The effect of a call. -/
def step {n : Nat} (s : State n) : Op → State n
  | .create => (create s).2
  | .start id v => start id v s
  | .stop id => stop id s
  | .process p => process p s

/-- A history behind the initialisation; `s` is the memory in front of it. -/
def run {n : Nat} (s : State n) (ops : List Op) : State n := ops.foldl step (init s)

/-- The ids returned by the creations of a history. -/
def idsFrom {n : Nat} (s : State n) : List Op → List U8
  | [] => []
  | .create :: ops => (create s).1 :: idsFrom (create s).2 ops
  | op :: ops => idsFrom (step s op) ops

/-- The ids returned by the creations of a history behind the initialisation. -/
def ids {n : Nat} (s : State n) (ops : List Op) : List U8 := idsFrom (init s) ops

end Timer

/-! ### Software timers (examples/avr/at90can/common/swTimer.c, the same for examples/arm) -/

namespace SwTimer

/-- examples/avr/at90can/common/swTimer.c:64-71 `swTimer_Context` -/
structure Ctx where
  startValue : U8
  isManual : Bool
  value : U8
deriving DecidableEq

/-- examples/avr/at90can/common/swTimer.c:82; `SWTIMER_NUM` is 2 (examples/avr/at90can/common/swTimer.h:68), here any number. -/
abbrev State (n : Nat) := Vector Ctx n

/-- examples/avr/at90can/common/swTimer.c:96-101 `swTimer_init` (`FALSE` is 0) -/
def init (n : Nat) : State n := Vector.replicate n ⟨0, false, 0⟩

/-- examples/avr/at90can/common/swTimer.c:110-126 `swTimer_start` -/
def start {n : Nat} (id v : U8) (manual : Bool) (s : State n) : State n :=
  if h : id.toNat < n then s.set id.toNat ⟨v, manual, v⟩ else s

/-- examples/avr/at90can/common/swTimer.c:133-147 `swTimer_stop` -/
def stop {n : Nat} (id : U8) (s : State n) : State n :=
  if h : id.toNat < n then s.set id.toNat { s[id.toNat] with value := 0 } else s

/-- examples/avr/at90can/common/swTimer.c:159-183 `swTimer_getStatus` -/
def getStatus {n : Nat} (id : U8) (s : State n) : Bool × State n :=
  if h : id.toNat < n then
    if s[id.toNat].value = 0 then
      (true, if s[id.toNat].isManual = false then s.set id.toNat { s[id.toNat] with value := s[id.toNat].startValue } else s)
    else (false, s)
  else (true, s)

/-- The body of the loop of examples/avr/at90can/common/swTimer.c:195-200. -/
def tick (t : Ctx) : Ctx := if 0 < t.value.toNat then { t with value := t.value - 1 } else t

/-- The loop of examples/avr/at90can/common/swTimer.c:193-201. -/
def processLoop {n : Nat} (i : Nat) (s : State n) : State n :=
  if h : i < n then processLoop (i + 1) (s.set i (tick s[i])) else s
termination_by n - i

/-- examples/avr/at90can/common/swTimer.c:189-204 `swTimer_process` -/
def process {n : Nat} (s : State n) : State n := processLoop 0 s

/-- The part of `swTimer_getStatus` behind the read access to the value (examples/avr/at90can/common/swTimer.c:171-182); `v` is the value which was read. -/
def getStatusRest {n : Nat} (id : U8) (v : U8) (s : State n) : Bool × State n :=
  if h : id.toNat < n then
    if v = 0 then
      (true, if s[id.toNat].isManual = false then s.set id.toNat { s[id.toNat] with value := s[id.toNat].startValue } else s)
    else (false, s)
  else (true, s)

/-- `swTimer_getStatus` interrupted `k` times by the timer interrupt, which calls `swTimer_process`, between the read access and the write
access to the value. -/
def getStatusIsr {n : Nat} (id : U8) (k : Nat) (s : State n) : Bool × State n :=
  getStatusRest id (if h : id.toNat < n then s[id.toNat].value else 0) (Nat.repeat process k s)

/-- The calls of the driver. -/
inductive Op
  | start (id v : U8) (manual : Bool)
  | stop (id : U8)
  | getStatus (id : U8)
  | process
deriving DecidableEq

/-- The effect of a call. -/
def step {n : Nat} (s : State n) : Op → State n
  | .start id v m => start id v m s
  | .stop id => stop id s
  | .getStatus id => (getStatus id s).2
  | .process => process s

/-- A history. -/
def run {n : Nat} (s : State n) (ops : List Op) : State n := ops.foldl step s

/-- The results of the queries of timer `id` in a history. -/
def results {n : Nat} (id : U8) (s : State n) : List Op → List Bool
  | [] => []
  | op :: ops => (if op = .getStatus id then [(getStatus id s).1] else []) ++ results id (step s op) ops

end SwTimer

/-! ### Clock (examples/avr/at90can/common/time.c) -/

namespace Clock

/-- examples/avr/at90can/common/time.h:76-83 `time_Time` -/
structure Time where
  ms : U16
  s : U8
  m : U8
  h : U8
deriving DecidableEq

/-- examples/avr/at90can/common/time.c:72-75: the system time and the day counter.  examples/avr/at90can/common/time.c:126-137 `time_get`,
examples/avr/at90can/common/time.c:147-155 `time_isrGet` and examples/avr/at90can/common/time.c:163-169 `time_getDay` return them. -/
structure State where
  t : Time
  day : U8
deriving DecidableEq

/-- examples/avr/at90can/common/time.c:89-98 `time_init` -/
def init : State := ⟨⟨0, 0, 0, 0⟩, 0⟩

/-- examples/avr/at90can/common/time.c:105-119 `time_set` -/
def set (t : Time) (s : State) : State := ⟨t, s.day + 1⟩

/-- examples/avr/at90can/common/time.c:256-285 `time_process` -/
def process (period : U16) (s : State) : State :=
  let ms := s.t.ms + period
  if 1000 ≤ ms.toNat then
    let sec := s.t.s + 1
    if 60 ≤ sec.toNat then
      let min := s.t.m + 1
      if 60 ≤ min.toNat then
        let hour := s.t.h + 1
        if 24 ≤ hour.toNat then ⟨⟨0, 0, 0, 0⟩, s.day + 1⟩ else ⟨⟨0, 0, 0, hour⟩, s.day⟩
      else ⟨⟨0, 0, min, s.t.h⟩, s.day⟩
    else ⟨⟨0, sec, s.t.m, s.t.h⟩, s.day⟩
  else ⟨{ s.t with ms := ms }, s.day⟩

/-- The choice of examples/avr/at90can/common/time.c:180-204: older and newer timestamp. -/
def order (ts1 ts2 : Time) : Time × Time :=
  if ts1.h.toNat < ts2.h.toNat then (ts1, ts2)
  else if ts1.m.toNat > ts2.m.toNat then (ts1, ts2)
  else if ts1.s.toNat > ts2.s.toNat then (ts1, ts2)
  else if ts1.ms.toNat > ts2.ms.toNat then (ts1, ts2)
  else (ts2, ts1)

/-- One digit of examples/avr/at90can/common/time.c:217-226 (228-237, 239-246): the difference to the base 60 (also for the hours)
and the overflow; in `int` arithmetic, the result converted to `uint8_t`. -/
def digit (now old overflow : Nat) : U8 × Nat :=
  if now < old + overflow then (BitVec.ofInt 8 (60 - old - overflow + now), 1)
  else (BitVec.ofInt 8 (now - old - overflow), 0)

/-- examples/avr/at90can/common/time.c:178-249 `time_calculateDiff` -/
def calculateDiff (ts1 ts2 : Time) : Time :=
  let old := (order ts1 ts2).1
  let now := (order ts1 ts2).2
  let ms : U16 × Nat :=
    if now.ms.toNat < old.ms.toNat then (BitVec.ofInt 16 (1000 - old.ms.toNat + now.ms.toNat), 1)
    else (BitVec.ofInt 16 (now.ms.toNat - old.ms.toNat), 0)
  let s := digit now.s.toNat old.s.toNat ms.2
  let m := digit now.m.toNat old.m.toNat s.2
  let h := digit now.h.toNat old.h.toNat m.2
  ⟨ms.1, s.1, m.1, h.1⟩

end Clock

/-! ### CAN adapters -/

namespace Can

/-- examples/avr/at90can/driver/canDrv.h:237-242 `CANMsg`: `unsigned long` has 32 bit, flags: extended (bit 0) and remote (bit 1) -/
structure Frame where
  id : U32
  len : U8
  extended : Bool
  rtr : Bool
  byte : Vector U8 8
deriving DecidableEq

/-- examples/avr/at90can/vscp_user/vscp_tp_adapter.c:156-160: the identifier -/
def packId (m : Msg) : U32 :=
  ((m.prio.setWidth 32 : U32) <<< 26) ||| ((if m.hard then 1 else 0 : U32) <<< 25) ||| ((m.cls.setWidth 32 : U32) <<< 16) |||
    ((m.typ.setWidth 32 : U32) <<< 8) ||| (m.oAddr.setWidth 32 : U32)

/-- Copy `k` bytes; `none`: access behind the end of an array of 8 bytes. -/
def copy (src dst : Vector U8 8) (k : Nat) : Option (Vector U8 8) :=
  if k ≤ 8 then some (Vector.ofFn fun i => if i.val < k then src[i] else dst[i]) else none

/-- examples/avr/at90can/vscp_user/vscp_tp_adapter.c:143-195 `vscp_tp_adapter_writeMessage` up to the transmission: the frame; `stack`
are the bytes of the uninitialised local variable.  `none`: the message is refused. -/
def writeFrame (m : Msg) (stack : Vector U8 8) : Option Frame :=
  if 8 ≥ m.size.toNat then
    some ⟨packId m, m.size, true, false, Vector.ofFn fun i => if i.val < m.size.toNat then m.data[i] else stack[i]⟩
  else none

/-- The do-while loop of examples/avr/at90can/vscp_user/vscp_tp_adapter.c:169-185: transmission attempts and result; `ok k` is the result of attempt `k` of
`can_SendFrame`, `VSCP_TP_ADAPTER_TX_RETRY` is 3. -/
def sendLoop (ok : Nat → Bool) (retryCnt : Nat) : Nat × Bool :=
  if ok retryCnt then (retryCnt + 1, true)
  else if h : retryCnt + 1 < 3 then sendLoop ok (retryCnt + 1) else (retryCnt + 1, false)
termination_by 3 - retryCnt

/-- The registers of a message object of the CAN controller: CANIDT1 - CANIDT4, CANCDMOB and the message bytes. -/
structure Mob where
  idt1 : U8
  idt2 : U8
  idt3 : U8
  idt4 : U8
  cdmob : U8
  bytes : List U8
deriving DecidableEq

/-- examples/avr/at90can/driver/canDrv.c:223-278 `can_SendFrame` for an extended frame without remote flag, a free message object available: contents of the message
object.  `none`: access behind the end of the bytes. -/
def toMob (f : Frame) : Option Mob :=
  if f.len.toNat ≤ 8 then
    some {
      cdmob := (0x10 + (f.len &&& 0x0F)) ||| 0x40
      idt4 := ((f.id &&& 0x1F) <<< 3).setWidth 8
      idt3 := ((f.id >>> 5) &&& 0xFF).setWidth 8
      idt2 := ((f.id >>> 13) &&& 0xFF).setWidth 8
      idt1 := ((f.id >>> 21) &&& 0xFF).setWidth 8
      bytes := f.byte.toList.take f.len.toNat }
  else none

/-- examples/avr/at90can/driver/canDrv.c:284-330 `can_readFrame` (a frame is available).  `old` is the storage of the caller.  `none`: access behind the
end of the bytes. -/
def ofMob (r : Mob) (old : Vector U8 8) : Option Frame :=
  let len := r.cdmob &&& 0x0F
  if len.toNat ≤ 8 then
    some {
      rtr := r.idt4 &&& 0x04 ≠ 0
      extended := r.cdmob &&& 0x10 ≠ 0
      id := if r.cdmob &&& 0x10 ≠ 0 then
          ((r.idt1.setWidth 32 : U32) <<< 21) + ((r.idt2.setWidth 32 : U32) <<< 13) + ((r.idt3.setWidth 32 : U32) <<< 5) +
            (((r.idt4 >>> 3) &&& 0x1F).setWidth 32 : U32)
        else ((r.idt1.setWidth 32 : U32) <<< 3) + (((r.idt2 >>> 5) &&& 0x07).setWidth 32 : U32)
      len := len
      byte := Vector.ofFn fun i => if i.val < len.toNat then r.bytes.getD i.val 0 else old[i] }
  else none

/-- examples/avr/at90can/vscp_user/vscp_tp_adapter.c:104-133 `vscp_tp_adapter_readMessage` with the frame which the driver returned.  `old` is the storage of the
caller.  `none`: access behind the end of an array. -/
def readMessage (f : Frame) (old : Msg) : Option Msg :=
  (copy f.byte old.data f.len.toNat).map fun data => {
    cls := ((f.id >>> 16) &&& 0x01FF).setWidth 16
    typ := ((f.id >>> 8) &&& 0x00FF).setWidth 8
    oAddr := (f.id &&& 0x00FF).setWidth 8
    hard := (((f.id >>> 25) &&& 0x0001).setWidth 8 : U8) ≠ 0
    prio := ((f.id >>> 26) &&& 0x0007).setWidth 8
    size := f.len
    data := data }

/-! The adapter for the FlexCAN controller. -/

/-- examples/arm/frdm-k64f/vscp_frdm_k64f/drivers/fsl_flexcan.h:288-323 `flexcan_frame_t`: identifier (29 bit), length (4 bit), two words of data -/
structure FlexFrame where
  id : U32
  length : U8
  word0 : U32
  word1 : U32
deriving DecidableEq

/-- `x << k` for `x` of type `uint8_t`, promoted to `int` of 32 bit.  `none`: undefined (negative or too large shift count, overflow). -/
def shl (x : U8) (k : Int) : Option U32 :=
  if 0 ≤ k ∧ k < 32 ∧ x.toNat * 2 ^ k.toNat < 2 ^ 31 then some ((x.setWidth 32 : U32) <<< k.toNat) else none

/-- `x >> k` for `x` of type `uint32_t`.  `none`: undefined (negative or too large shift count). -/
def shr (x : U32) (k : Int) : Option U32 := if 0 ≤ k ∧ k < 32 then some (x >>> k.toNat) else none

/-- The loop of examples/arm/frdm-k64f/vscp_frdm_k64f/vscp_user/vscp_tp_adapter.c:244-256. -/
def flexPack (data : Vector U8 8) (size : Nat) (i : Nat) (f : FlexFrame) : Option FlexFrame :=
  if h : i < size then
    if h8 : i < 8 then
      if 4 < i then
        match shl data[i] (24 - i * 8) with
        | none => none
        | some x => flexPack data size (i + 1) { f with word0 := f.word0 ||| x }
      else
        match shl data[i] (48 - i * 8) with
        | none => none
        | some x => flexPack data size (i + 1) { f with word1 := f.word1 ||| x }
    else none
  else some f
termination_by size - i

/-- examples/arm/frdm-k64f/vscp_frdm_k64f/vscp_user/vscp_tp_adapter.c:224-266 `vscp_tp_adapter_writeMessage` up to the transmission, for a message of at most 8 bytes;
`FLEXCAN_ID_EXT` keeps 29 bit.  `none`: undefined. -/
def flexWrite (m : Msg) : Option FlexFrame :=
  flexPack m.data m.size.toNat 0 ⟨packId m &&& 0x1FFFFFFF, m.size, 0, 0⟩

/-- The loop of examples/arm/frdm-k64f/vscp_frdm_k64f/vscp_user/vscp_tp_adapter.c:184-196. -/
def flexUnpack (f : FlexFrame) (i : Nat) (data : Vector U8 8) : Option (Vector U8 8) :=
  if h : i < f.length.toNat then
    if h8 : i < 8 then
      match shr f.word0 (if 4 < i then 24 - i * 8 else 48 - i * 8) with
      | none => none
      | some x => flexUnpack f (i + 1) (data.set i (x.setWidth 8))
    else none
  else some data
termination_by f.length.toNat - i

/-- examples/arm/frdm-k64f/vscp_frdm_k64f/vscp_user/vscp_tp_adapter.c:176-197: conversion of a received frame.  `none`: undefined. -/
def flexRead (f : FlexFrame) (old : Msg) : Option Msg :=
  (flexUnpack f 0 old.data).map fun data => {
    cls := ((f.id >>> 16) &&& 0x01FF).setWidth 16
    typ := ((f.id >>> 8) &&& 0x00FF).setWidth 8
    oAddr := (f.id &&& 0x00FF).setWidth 8
    hard := (((f.id >>> 25) &&& 0x0001).setWidth 8 : U8) ≠ 0
    prio := ((f.id >>> 26) &&& 0x0007).setWidth 8
    size := f.length
    data := data }

/-- The do-while loop of examples/arm/frdm-k64f/vscp_frdm_k64f/vscp_user/vscp_tp_adapter.c:164-208; `full k`: message buffer `k` holds a received frame (it is read and released);
result: the buffer which was read, and the new `mbIdx`.  `fuel` bounds the iterations: the index grows with each and is 8 bit wide. -/
def pollLoop (full : Nat → Bool) : (fuel : Nat) → (mbIdx : Nat) → Option Nat × Nat
  | 0, mbIdx => (none, mbIdx)
  | fuel + 1, mbIdx =>
    if full mbIdx then (some mbIdx, mbIdx)
    else if 15 < mbIdx + 1 then pollLoop full fuel (mbIdx + 1) else (none, mbIdx + 1)

/-- examples/arm/frdm-k64f/vscp_frdm_k64f/vscp_user/vscp_tp_adapter.c:157-214 `vscp_tp_adapter_readMessage`: which of the 15 message buffers is read. -/
def poll (full : Nat → Bool) (mbIdx : Nat) : Option Nat × Nat :=
  let r := pollLoop full 256 mbIdx
  (r.1, r.2 % 15)

end Can

end Vscp.Driver
