/-
Model of src/vscp_data_coding.c
-/
import Verif.Model.Basic

namespace Vscp.DataCoding

/-- src/vscp_data_coding.c:97-106 `vscp_data_coding_getFormatByte`.
The representation is an enumeration, modelled as a byte. -/
def getFormatByte (representation unit index : U8) : U8 :=
  let f : U8 := (representation &&& 0x07) <<< 5
  let f := f ||| ((unit &&& 0x03) <<< 3)
  let f := f ||| ((index &&& 0x07) <<< 0)
  f

/-- src/vscp_data_coding.c:322-330 `vscp_data_coding_getNormalizerByte`. -/
def getNormalizerByte (sign magnitude : U8) : U8 :=
  ((sign &&& 0x01) <<< 7) ||| ((magnitude &&& 0x7f) <<< 0)

/-- `(uint8_t)((data >> k) & 0xff)` on an `int32_t` (arithmetic shift). -/
def byteAt (data : U32) (k : Nat) : U8 :=
  ((data.sshiftRight k) &&& 0xff).setWidth 8

/-- src/vscp_data_coding.c:127-212 `vscp_data_coding_int32ToNormalizedInteger`.

`codedData` is the memory behind the pointer (its length is the number of bytes really
available there), `codedDataSize` the size the caller announces.  The result is the returned
size and the memory afterwards; `none` is undefined behaviour: `-1 * data` overflows for
`INT32_MIN` (line 132), or a store outside of the memory. -/
def int32ToNormalizedInteger (data : U32) (exp : U8) (codedData : List U8) (codedDataSize : U8) :
    Option (U8 × List U8) :=
  let expSign : U8 := if exp.slt 0 then 1 else 0
  let expMagnitude : U8 := if exp.slt 0 then -exp else exp
  if data = 0x80000000 then none
  else
    let dataMagnitude : U32 := if data.slt 0 then -data else data
    let neededSize : U8 :=
      if dataMagnitude < 0x80 then 1 + 1
      else if dataMagnitude < 0x8000 then 1 + 2
      else if dataMagnitude < 0x800000 then 1 + 3
      else 1 + 4
    if codedDataSize < neededSize then some (0, codedData)
    else do
      let m ← wr codedData 0 (getNormalizerByte expSign expMagnitude)
      if dataMagnitude < 0x80 then
        let m ← wr m 1 (byteAt data 0)
        some (2, m)
      else if dataMagnitude < 0x8000 then
        let m ← wr m 1 (byteAt data 8)
        let m ← wr m 2 (byteAt data 0)
        some (3, m)
      else if dataMagnitude < 0x800000 then
        let m ← wr m 1 (byteAt data 16)
        let m ← wr m 2 (byteAt data 8)
        let m ← wr m 3 (byteAt data 0)
        some (4, m)
      else
        let m ← wr m 1 (byteAt data 24)
        let m ← wr m 2 (byteAt data 16)
        let m ← wr m 3 (byteAt data 8)
        let m ← wr m 4 (byteAt data 0)
        some (5, m)

/-- src/vscp_data_coding.c:223-309 `vscp_data_coding_normalizedIntegerToInt32`.

`codedData` is the memory behind the pointer, `codedDataSize` the announced size.  The result
is `(*data, *exp)`; `none` is a read outside of the memory.  The two output pointers are taken
to be non-null.  The shift `((int32_t)byte) << 24` (line 290) is modelled as the bit operation
every supported compiler performs (formally it is undefined in C for bytes >= 0x80). -/
def normalizedIntegerToInt32 (codedData : List U8) (codedDataSize : U8) : Option (U32 × U8) :=
  if codedDataSize < 1 ∨ 5 < codedDataSize then some (0, 0)
  else do
    let c0 ← codedData[0]?
    let exp : U8 := c0 &&& 0x7f
    let exp : U8 := if 0 ≠ (c0 &&& 0x80) then exp * (-1) else exp
    if codedDataSize = 2 then
      let c1 ← codedData[1]?
      some (c1.setWidth 32, exp)
    else if codedDataSize = 3 then
      let c1 ← codedData[1]?
      let c2 ← codedData[2]?
      some (((c1.setWidth 32 : U32) <<< 8) ||| c2.setWidth 32, exp)
    else if codedDataSize = 4 then
      let c1 ← codedData[1]?
      let d : U32 := if 0 ≠ (c1 &&& 0x80) then 0xff000000 else 0
      let d := d ||| ((c1.setWidth 32 : U32) <<< 16)
      let c2 ← codedData[2]?
      let d := d ||| ((c2.setWidth 32 : U32) <<< 8)
      let c3 ← codedData[3]?
      let d := d ||| (c3.setWidth 32 : U32)
      some (d, exp)
    else if codedDataSize = 5 then
      let c1 ← codedData[1]?
      let d : U32 := (c1.setWidth 32 : U32) <<< 24
      let c2 ← codedData[2]?
      let d := d ||| ((c2.setWidth 32 : U32) <<< 16)
      let c3 ← codedData[3]?
      let d := d ||| ((c3.setWidth 32 : U32) <<< 8)
      let c4 ← codedData[4]?
      let d := d ||| (c4.setWidth 32 : U32)
      some (d, exp)
    else
      some (0, exp)

end Vscp.DataCoding
