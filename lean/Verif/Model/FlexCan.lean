/-
The FlexCAN controller of the ARM example, with its vendor driver as far as the adapter uses it, and the adapter.
-/
import Verif.Model.Driver

namespace Vscp.Driver.Flex
open Vscp.Driver.Can

/-- A frame on the bus: 29 bit identifier (`ide`) or 11 bit identifier, remote frame or data frame. -/
structure Frame where
  ide : Bool
  rtr : Bool
  id : U32
  dlc : U8
  word0 : U32
  word1 : U32
deriving DecidableEq

/-- The code of a message buffer (examples/arm/frdm-k64f/vscp_frdm_k64f/drivers/fsl_flexcan.c:51-75 enumerations of the codes), as far as used -/
inductive Code where
  | inactive
  | empty
  | full
  | overrun
  | txInactive
  | txData
deriving DecidableEq

/-- A message buffer: the fields of CS, ID and the data words.  `served`: the received frame has been read (CS read, buffer unlocked by reading
the timer), the controller may store the next one. -/
structure Mb where
  code : Code
  ide : Bool
  rtr : Bool
  dlc : U8
  id : U32
  word0 : U32
  word1 : U32
  served : Bool
deriving DecidableEq

/-- The controller: mask registers (RXMGMASK, RX14MASK, RX15MASK), 16 message buffers, interrupt flags (IFLAG1), and the frames sent on the bus so far. -/
structure Ctl where
  mg : U32
  m14 : U32
  m15 : U32
  mb : Nat → Mb
  flag : Nat → Bool
  sent : List Frame

/-! ### The controller (K64 reference manual, chapter FlexCAN, matching process) -/

/-- The mask of a buffer, individual masks are switched off (examples/arm/frdm-k64f/vscp_frdm_k64f/drivers/fsl_flexcan.c:518-535 `FLEXCAN_GetDefaultConfig`). -/
def Ctl.mask (c : Ctl) (k : Nat) : U32 := if k = 14 then c.m14 else if k = 15 then c.m15 else c.mg

/-- The identifier of a frame as it is stored in the ID field (11 bit identifiers in the upper bits).  Simplification: the unused bits are 0. -/
def Frame.field (f : Frame) : U32 := if f.ide then f.id &&& 0x1FFFFFFF else (f.id &&& 0x7FF) <<< 18

/-- The frame passes the filter of a buffer: the bits of the identifier which are set in the mask are equal; format and type are compared
if bits 30 and 31 of the mask are set (CTRL2[EACEN] is set, examples/arm/frdm-k64f/vscp_frdm_k64f/drivers/fsl_flexcan.c:371). -/
def matches? (m : U32) (b : Mb) (f : Frame) : Bool :=
  decide (f.field &&& m &&& (if f.ide then 0x1FFFFFFF else 0x1FFC0000) = b.id &&& m &&& (if f.ide then 0x1FFFFFFF else 0x1FFC0000)) &&
  (!m.getLsbD 30 || f.ide == b.ide) && (!m.getLsbD 31 || f.rtr == b.rtr)

/-- A buffer for reception. -/
def Mb.rx (b : Mb) : Bool := b.code = .empty || b.code = .full || b.code = .overrun

/-- The controller may store a frame in the buffer without loss. -/
def Mb.free (b : Mb) : Bool := b.code = .empty || ((b.code = .full || b.code = .overrun) && b.served)

/-- Store a frame in buffer `k`. -/
def Ctl.store (c : Ctl) (k : Nat) (code : Code) (f : Frame) : Ctl :=
  { c with
    mb := fun j => if j = k then ⟨code, f.ide, f.rtr, f.dlc, f.field, f.word0, f.word1, false⟩ else c.mb j
    flag := fun j => if j = k then true else c.flag j }

/-- A frame on the bus: it is stored in the first buffer which is free and passes, otherwise the last one which passes is overwritten, otherwise
it is ignored. -/
def Ctl.receive (c : Ctl) (f : Frame) : Ctl :=
  let pass := (List.range 16).filter fun k => (c.mb k).rx && matches? (c.mask k) (c.mb k) f
  match pass.find? fun k => (c.mb k).free with
  | some k => c.store k .full f
  | none =>
    match pass.getLast? with
    | some k => c.store k .overrun f
    | none => c

/-! ### The vendor driver -/

/-- examples/arm/frdm-k64f/vscp_frdm_k64f/drivers/fsl_flexcan.c:335-393 `FLEXCAN_Reset`, examples/arm/frdm-k64f/vscp_frdm_k64f/drivers/fsl_flexcan.c:431-494 `FLEXCAN_Init`: masks and buffers (identifiers and data
words are not changed: `mb` are those in front of it) -/
def initCtl (mb : Nat → Mb) : Ctl where
  mg := 0x3FFFFFFF
  m14 := 0x3FFFFFFF
  m15 := 0x3FFFFFFF
  mb := fun k => { mb k with code := .inactive, ide := false, rtr := false, dlc := 0, served := false }
  flag := fun _ => false
  sent := []

/-- examples/arm/frdm-k64f/vscp_frdm_k64f/drivers/fsl_flexcan.c:598-618 `FLEXCAN_SetTxMbConfig` with `enable` -/
def setTxMb (k : Nat) (c : Ctl) : Ctl :=
  { c with mb := fun j => if j = k then ⟨.txInactive, false, false, 0, 0, 0, 0, false⟩ else c.mb j }

/-- examples/arm/frdm-k64f/vscp_frdm_k64f/drivers/fsl_flexcan.c:620-658 `FLEXCAN_SetRxMbConfig` with `enable`, for data frames with 29 bit identifier `id` -/
def setRxMb (k : Nat) (id : U32) (c : Ctl) : Ctl :=
  { c with mb := fun j => if j = k then ⟨.empty, true, false, 0, id, 0, 0, false⟩ else c.mb j }

/-- examples/arm/frdm-k64f/vscp_frdm_k64f/drivers/fsl_flexcan.c:847-900 `FLEXCAN_ReadRxMb`: the frame (`old` is the storage of the caller), the buffer has been read.  (The flag is cleared by
`FLEXCAN_ClearMbStatusFlags`.) -/
def readRxMb (k : Nat) (old : FlexFrame) (c : Ctl) : FlexFrame × Ctl :=
  let b := c.mb k
  if b.code = .full ∨ b.code = .overrun then
    (⟨b.id &&& 0x1FFFFFFF, b.dlc, b.word0, b.word1⟩,
      { c with mb := fun j => if j = k then { b with served := true } else c.mb j })
  else (old, c)

/-- examples/arm/frdm-k64f/vscp_frdm_k64f/drivers/fsl_flexcan.c:793-845 `FLEXCAN_WriteTxMb`, examples/arm/frdm-k64f/vscp_frdm_k64f/drivers/fsl_flexcan.c:946-965 `FLEXCAN_TransferSendBlocking` for data frames with 29 bit
identifier: result and controller.  Assumption: the controller sends the frame in the end (the function waits for it). -/
def transferSendBlocking (k : Nat) (f : FlexFrame) (c : Ctl) : Bool × Ctl :=
  if (c.mb k).code ≠ .txData then
    (true, { c with
      mb := fun j => if j = k then ⟨.txInactive, true, false, f.length, f.id, f.word0, f.word1, false⟩ else c.mb j
      flag := fun j => if j = k then false else c.flag j
      sent := c.sent ++ [⟨true, false, f.id, f.length, f.word0, f.word1⟩] })
  else (false, c)

/-! ### The adapter -/

/-- The loop of examples/arm/frdm-k64f/vscp_frdm_k64f/vscp_user/vscp_tp_adapter.c:129-137. -/
def initRx : Nat → Ctl → Ctl
  | 0, c => c
  | n + 1, c => setRxMb n 0 (initRx n c)

/-- examples/arm/frdm-k64f/vscp_frdm_k64f/vscp_user/vscp_tp_adapter.c:104-147 `vscp_tp_adapter_init`; the second loop has one round, for buffer 15 + 0 - 1 -/
def init (mb : Nat → Mb) : Ctl := setTxMb (15 + 0 - 1) (initRx 15 (initCtl mb))

/-- The static variable of the read function, and the controller. -/
structure State where
  mbIdx : Nat
  ctl : Ctl

/-- examples/arm/frdm-k64f/vscp_frdm_k64f/vscp_user/vscp_tp_adapter.c:157-214 `vscp_tp_adapter_readMessage`; `old` is the storage of the caller.  `none`: undefined. -/
def readMessage (old : Msg) (s : State) : Option (Option Msg × State) :=
  let r := poll s.ctl.flag s.mbIdx
  match r.1 with
  | none => some (none, { s with mbIdx := r.2 })
  | some k =>
    let q := readRxMb k ⟨0, 0, 0, 0⟩ s.ctl
    match flexRead q.1 old with
    | none => none
    | some m => some (some m, ⟨r.2, { q.2 with flag := fun j => if j = k then false else q.2.flag j }⟩)

/-- examples/arm/frdm-k64f/vscp_frdm_k64f/vscp_user/vscp_tp_adapter.c:224-266 `vscp_tp_adapter_writeMessage`.  `none`: undefined. -/
def writeMessage (m : Msg) (s : State) : Option (Bool × State) :=
  if 8 ≥ m.size.toNat then
    match flexWrite m with
    | none => none
    | some f =>
      let r := transferSendBlocking 15 f s.ctl
      some (r.1, { s with ctl := r.2 })
  else some (false, s)

/-- What can happen: a frame on the bus, a call of the read function (with the storage of the caller), a call of the write function. -/
inductive Move where
  | bus (f : Frame)
  | read (old : Msg)
  | write (m : Msg)
deriving DecidableEq

/-- A history: the state behind it and the events which were delivered.  `none`: undefined behaviour. -/
def run : List Move → State → Option (List Msg × State)
  | [], s => some ([], s)
  | .bus f :: l, s => run l { s with ctl := s.ctl.receive f }
  | .read old :: l, s =>
    match readMessage old s with
    | none => none
    | some r => (run l r.2).map fun q => (r.1.toList ++ q.1, q.2)
  | .write m :: l, s =>
    match writeMessage m s with
    | none => none
    | some r => run l r.2

/-- A history behind the initialisation. -/
def history (mb : Nat → Mb) (l : List Move) : Option (List Msg × State) := run l ⟨0, init mb⟩

end Vscp.Driver.Flex
