/-
Model of the message helpers of src/vscp_core.c and of src/vscp_logger.c
-/
import Verif.Model.Dm
import Verif.Model.DmNg

namespace Vscp

namespace Core
open M

/-- src/vscp_core.c:648-661 `vscp_core_prepareTxMessage` (pointer not null).  The data bytes are not initialised by the
code; they are modelled as 0. -/
def prepareTxMessage (c : Ctx) (cls : U16) (typ prio : U8) : M Msg := do
  let w ← get
  pure ⟨prio, cls, typ, w.v.nick, c.hardCoded, 0, bytes8 []⟩

/-- src/vscp_core.c:673-676 `vscp_core_sendEvent` -/
def sendEvent (c : Ctx) (m : Msg) : M Bool := Transport.writeMessage c m

/-- The block which fills a `vscp_TxMessage` and calls `vscp_transport_writeMessage`, as it is repeated
throughout src/vscp_core.c, e.g. lines 1625-1632 and 1802-1811.  `l` are the data bytes, `dataSize` is their
number. -/
def tx (c : Ctx) (prio : U8) (typ : U8) (l : List U8) : M Bool := do
  let w ← get
  Transport.writeMessage c ⟨prio, Transport.CLASS_PROTOCOL, typ, w.v.nick, c.hardCoded,
    BitVec.ofNat 8 l.length, bytes8 l⟩

/-- `tx` with the result cast to void. -/
def txVoid (c : Ctx) (prio : U8) (typ : U8) (l : List U8) : M Unit := do
  let _ ← tx c prio typ l

/-- The block of src/vscp_core.c:2555-2577 and 2921-2947: `oAddr` is the nickname before the registers are written. -/
def txFrom (c : Ctx) (nick prio : U8) (typ : U8) (l : List U8) : M Unit := do
  let _ ← Transport.writeMessage c ⟨prio, Transport.CLASS_PROTOCOL, typ, nick, c.hardCoded, BitVec.ofNat 8 l.length, bytes8 l⟩

end Core

namespace Logger
open M

/-- src/vscp_logger.c:102-106 `vscp_logger_enable` -/
def enable (b : Bool) : M Unit := modify fun w => { w with lg := { w.lg with on := b } }

/-- src/vscp_logger.c:113-116 `vscp_logger_getLogLevel` -/
def getLogLevel : M U8 := do return (← get).lg.level

/-- src/vscp_logger.c:123-128 `vscp_logger_setLogLevel` -/
def setLogLevel (l : U8) : M Unit := modify fun w => { w with lg := { w.lg with level := l } }

/-- The do-while loop of src/vscp_logger.c:254-280.  `msg` are the bytes still to be sent; a null pointer behaves
like size 0. -/
def sendLoop (c : Ctx) (m : Msg) (id level : U8) : (eventIndex : U8) → (msg : List U8) → M Bool
  | e, msg => do
    let status ← Core.sendEvent c { m with
      size := 8
      data := bytes8 ([id, level, e] ++ msg.take 5) }
    if h : 0 < (msg.drop 5).length ∧ status = true then
      sendLoop c m id level (e + 1) (msg.drop 5)
    else pure status
termination_by _ msg => msg.length
decreasing_by
  simp only [List.length_drop] at *
  omega

/-- src/vscp_logger.c:239-283 `vscp_logger_sendLogEvent`; `size` is a `uint8_t`, so at most 255 bytes are
sent. -/
def sendLogEvent (c : Ctx) (id level : U8) (msg : List U8) : M Bool := do
  let m ← Core.prepareTxMessage c Transport.CLASS_LOG 1 3
  sendLoop c m id level 0 msg

/-- src/vscp_logger.c:138-149 `vscp_logger_log`; the level is an enumeration with the values 0 - 4. -/
def log (c : Ctx) (id : U8) (level : U8) (msg : List U8) : M Unit := do
  let w ← get
  whenM (w.lg.on = true) (whenM ((w.lg.level.setWidth 32 : U32) &&& (1 <<< level.toNat) ≠ 0) (do
    let _ ← sendLogEvent c id level msg))

/-- src/vscp_logger.c:158-166 `vscp_logger_logUInt32` -/
def logUInt32 (c : Ctx) (id : U8) (level : U8) (x : U32) : M Unit :=
  log c id level [DevData.memByte c x 3, DevData.memByte c x 2, DevData.memByte c x 1, DevData.memByte c x 0]

/-- src/vscp_logger.c:174-221 `vscp_logger_handleEvent` (pointer not null) -/
def handleEvent (c : Cfg) (m : Msg) : M Unit :=
  if m.cls = Transport.CLASS_LOG then
    if m.typ = 2 then
      whenM (m.size = 1) (do
        let id ← Ps.readLogId c
        whenM (id = m.data[0]) (enable true))
    else if m.typ = 3 then
      whenM (m.size = 1) (do
        let id ← Ps.readLogId c
        whenM (id = m.data[0]) (enable false))
    else if m.typ = 4 then whenM (m.size = 1) (setLogLevel m.data[0])
    else pure ()
  else pure ()

end Logger
end Vscp
