/-
Basic types of the model.

Integers of the C code are bit vectors, so that wrap-around is the one of C.
Undefined behaviour is the outcome `none` of an `Option`.
-/
namespace Vscp

/-- `uint8_t` -/
abbrev U8 := BitVec 8
/-- `uint16_t` -/
abbrev U16 := BitVec 16
/-- `uint32_t`, and (read with `toInt`) `int32_t` -/
abbrev U32 := BitVec 32

/-- `VSCP_L1_DATA_SIZE`, src/vscp_types.h: maximum number of data bytes of a level 1 event. -/
def L1_DATA_SIZE : Nat := 8

/-- A store `m[i] = v` into an array; `none` is the undefined behaviour of a store outside of
the array. -/
def wr {α : Type} (m : List α) (i : Nat) (v : α) : Option (List α) :=
  if i < m.length then some (m.set i v) else none

end Vscp
