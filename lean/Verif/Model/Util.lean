/-
Model of src/vscp_util.c
-/
import Verif.Model.Basic

namespace Vscp.Util

/-- src/vscp_util.c:107-206 `vscp_util_getZoneIndex`.  The class and type numbers are those of
src/vscp_class_l1.h and src/vscp_type_*.h: ALARM 1, SECURITY 2, INFORMATION 20, CONTROL 30, AOL 50,
MEASUREZONE 65, SETVALUEZONE 85, WEATHER 90, WEATHER_FORECAST 95, PHONE 100, DISPLAY 102, IR 110,
DIAGNOSTIC 506, ERROR 508; INFORMATION: STREAM_DATA 36, STREAM_DATA_WITH_ZONE 38, CONFIRM 39; CONTROL: DEACTIVATE 16, DIM_LAMPS 20, STREAM_DATA 25; PHONE ANSWER 4; DISPLAY
SET_DISPLAY_BUFFER_PARAM 6; REMOTE VSCP_ABSTRACT 48, MAPITO 49. -/
def getZoneIndex (vscpClass : U16) (vscpType : U8) : U8 :=
  if 0 < vscpType then
    match vscpClass.toNat with
    | 1 | 2 | 50 | 65 | 85 | 90 | 95 | 506 | 508 => 1
    | 20 =>
      if vscpType = 38 ∨ vscpType = 39 then 0
      else if vscpType ≠ 36 then 1
      else 0xFF
    | 30 => if vscpType ≤ 16 ∨ (20 ≤ vscpType ∧ vscpType ≠ 25) then 1 else 0xFF
    | 100 => if vscpType = 4 then 1 else 0xFF
    | 102 => if vscpType ≠ 6 then 1 else 0xFF
    | 110 => if vscpType = 48 ∨ vscpType = 49 then 1 else 0xFF
    | _ => 0xFF
  else 0xFF

/-- src/vscp_util.h:97-105 `vscp_util_CyclicBuffer`.

The storage behind the `void*` is a list of cells.  For a byte buffer the cells are bytes; a
client whose elements are structures may use one cell per element. -/
structure CyclicBuffer (α : Type) where
  storage : List α
  elemSize : U8
  num : U8
  readIndex : U8
  writeIndex : U8

/-- src/vscp_util.c:216-228 `vscp_util_cyclicBufferInit` (context pointer not null).  `none` is
the division by zero for `elemSize = 0`. -/
def cyclicBufferInit {α : Type} (storage : List α) (size elemSize : U8) : Option (CyclicBuffer α) :=
  if elemSize = 0 then none
  else some { storage := storage, elemSize := elemSize,
              num := BitVec.ofNat 8 (size.toNat / elemSize.toNat), readIndex := 0, writeIndex := 0 }

/-- The copy loop `for(index = 0; index < elemSize; ++index) dst[index] = src[index];`
(src/vscp_util.c:258-261 and 301-304) from offset `so` of `src` to offset `d` of `dst`, `n` cells.
`none`: access outside of one of the two memories. -/
def copyCells {α : Type} (src : List α) (so : Nat) (dst : List α) (d : Nat) : Nat → Option (List α)
  | 0 => some dst
  | n + 1 => do
    let dst ← copyCells src so dst d n
    let x ← src[so + n]?
    wr dst (d + n) x

/-- `(i + 1) % num` stored in a `uint8_t`; `none` for `num = 0`. -/
def nextIndex (i num : U8) : Option U8 :=
  if num = 0 then none else some (BitVec.ofNat 8 ((i.toNat + 1) % num.toNat))

/-- The loop of src/vscp_util.c:252-267.  The first argument is `maxNum - read`, `src` and `dst` are
the offsets of the two running pointers; they advance linearly, as in the code. -/
def readLoop {α : Type} : Nat → CyclicBuffer α → List α → Nat → Nat → U8 →
    Option (U8 × CyclicBuffer α × List α)
  | 0, cb, elem, _, _, read => some (read, cb, elem)
  | n + 1, cb, elem, src, dst, read =>
    if cb.readIndex ≠ cb.writeIndex then do
      let nextReadIndex ← nextIndex cb.readIndex cb.num
      let elem ← copyCells cb.storage src elem dst cb.elemSize.toNat
      readLoop n { cb with readIndex := nextReadIndex } elem
        (src + cb.elemSize.toNat) (dst + cb.elemSize.toNat) (read + 1)
    else some (read, cb, elem)

/-- src/vscp_util.c:238-271 `vscp_util_cyclicBufferRead` (pointers not null).  Result: number of
elements read, the buffer and the element memory afterwards. -/
def cyclicBufferRead {α : Type} (cb : CyclicBuffer α) (elem : List α) (maxNum : U8) :
    Option (U8 × CyclicBuffer α × List α) :=
  readLoop maxNum.toNat cb elem (cb.readIndex.toNat * cb.elemSize.toNat) 0 0

/-- The loop of src/vscp_util.c:296-311.  The first argument is `maxNum - written`. -/
def writeLoop {α : Type} : Nat → CyclicBuffer α → U8 → List α → Nat → Nat → U8 →
    Option (U8 × CyclicBuffer α)
  | 0, cb, _, _, _, _, written => some (written, cb)
  | n + 1, cb, nextWriteIndex, elem, src, dst, written =>
    if cb.readIndex ≠ nextWriteIndex then do
      let storage ← copyCells elem src cb.storage dst cb.elemSize.toNat
      let next' ← nextIndex nextWriteIndex cb.num
      writeLoop n { cb with storage := storage, writeIndex := nextWriteIndex } next' elem
        (src + cb.elemSize.toNat) (dst + cb.elemSize.toNat) (written + 1)
    else some (written, cb)

/-- src/vscp_util.c:281-315 `vscp_util_cyclicBufferWrite` (pointers not null). -/
def cyclicBufferWrite {α : Type} (cb : CyclicBuffer α) (elem : List α) (maxNum : U8) :
    Option (U8 × CyclicBuffer α) :=
  if 0 < maxNum then do
    let nextWriteIndex ← nextIndex cb.writeIndex cb.num
    writeLoop maxNum.toNat cb nextWriteIndex elem 0 (cb.writeIndex.toNat * cb.elemSize.toNat) 0
  else some (0, cb)

end Vscp.Util
