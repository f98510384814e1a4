/-
Model of src/vscp_transport.c
-/
import Verif.Model.Ps

namespace Vscp

instance : Coe Ctx Cfg := ⟨Ctx.toCfg⟩

namespace Transport
open M

/-- src/vscp_class_l1.h `VSCP_CLASS_L1_PROTOCOL` -/
def CLASS_PROTOCOL : U16 := 0
/-- src/vscp_class_l1.h `VSCP_CLASS_L1_LOG` -/
def CLASS_LOG : U16 := 509

/-- src/vscp_transport.c:97-113 `vscp_transport_init`.

The elements of the loopback buffer are whole messages, so one cell of the modelled storage is
one message and the element size is one cell; the number of slots is computed as in the code, from
the sizes in bytes truncated to `uint8_t`.  `vscp_tp_adapter_init` has no effect on the model. -/
def init (c : Ctx) : M Unit :=
  if c.loopback then do
    match Util.cyclicBufferInit (List.replicate c.loopbackNum (default : Msg))
        (BitVec.ofNat 8 (c.loopbackNum * c.sizeofMsg)) (BitVec.ofNat 8 c.sizeofMsg) with
    | some cb => modify fun w => { w with tp := { w.tp with lb := { cb with elemSize := 1 } } }
    | none => markUb
  else pure ()

/-- `vscp_util_cyclicBufferWrite(&loopBack, msg, 1)`, result ignored. -/
def loopPut (m : Msg) : M Unit := do
  let w ← get
  match Util.cyclicBufferWrite w.tp.lb [m] 1 with
  | some (_, cb) => modify fun w => { w with tp := { w.tp with lb := cb } }
  | none => markUb

/-- `vscp_util_cyclicBufferRead(&loopBack, msg, 1)`; the message if one was read. -/
def loopGet : M (Option Msg) := do
  let w ← get
  match Util.cyclicBufferRead w.tp.lb [(default : Msg)] 1 with
  | some (n, cb, m) => do
    modify fun w => { w with tp := { w.tp with lb := cb } }
    pure (if 0 < n then m.head? else none)
  | none => do markUb; pure none

/-- The message of the adapter, if there is one, is put into the loopback buffer. -/
def loopPutOpt : Option Msg → M Unit
  | some m => loopPut m
  | none => pure ()

/-- src/vscp_transport.c:123-175 `vscp_transport_readMessage` (pointer not null).  `rx` is
what `vscp_tp_adapter_readMessage` delivers; the adapter is asked exactly once in every path.  The result is the
message, if status is TRUE. -/
def readMessage (c : Ctx) (rx : Option Msg) : M (Option Msg) :=
  if c.loopback then do
    match (← loopGet) with
    | some m => do
      loopPutOpt rx
      pure (some m)
    | none => pure rx
  else pure rx

/-- `vscp_tp_adapter_writeMessage` -/
def adapterWrite (c : Ctx) (m : Msg) : M Bool := do
  let w ← get
  emit (.tx m (c.txOk w.out.length))
  pure (c.txOk w.out.length)

/-- src/vscp_transport.c:185-223 `vscp_transport_writeMessage` (pointer not null) -/
def writeMessage (c : Ctx) (m : Msg) : M Bool := do
  let status ←
    (if c.loopback then
      if m.size.toNat ≤ L1_DATA_SIZE then do
        whenM (m.cls ≠ CLASS_PROTOCOL ∧ m.cls ≠ CLASS_LOG) (loopPut m)
        adapterWrite c m
      else pure false
    else adapterWrite c m)
  whenM (status = false) (modify fun w =>
    if w.tp.txErr.toNat < 255 then { w with tp := { w.tp with txErr := w.tp.txErr + 1 } } else w)
  pure status

/-- src/vscp_transport.c:231-238 `vscp_transport_getTransmitErrors` -/
def getTransmitErrors : M U8 := do
  let w ← get
  modify fun w => { w with tp := { w.tp with txErr := 0 } }
  pure w.tp.txErr

end Transport
end Vscp
