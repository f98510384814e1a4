/-
The send functions of src/events: their statements and what they do.  The functions themselves are listed in Verif.Model.EventTable.
-/
import Verif.Model.Logger
import Verif.Model.DataCoding

namespace Vscp.Events

/-- Types of the parameters in the declarations of src/events/*.h: `uint8_t`, `int8_t`, `uint16_t`, `uint32_t`, `int32_t`, `float_t`, `double_t`; pointers to a single value
documented as "(optional)"; pointers to bytes, followed by their number (`len`), optional or not. -/
inductive Ty
  | u8 | i8 | u16 | u32 | i32 | f32 | f64 | opt8 | opt16 | opt32 | arr | optArr | len
deriving DecidableEq

/-- The statements which occur in src/events/*.c.  Parameters are numbered from 0. -/
inductive Stmt
  /-- `if ((NULL == a) || (0 == n)) { return FALSE; }` -/
  | need (a n : Nat)
  /-- `txMsg.data[k] = (uint8_t)((a >> sh) & 0xff);` (`txMsg.data[k] = a;` if `sh` is 0) -/
  | byte (k a sh : Nat)
  /-- `txMsg.data[k] = ((uint8_t*)&a)[j];` for a parameter of type `float_t` or `double_t` -/
  | mem (k a j : Nat) (double : Bool)
  /-- `size += n;` (some functions: `txMsg.dataSize = n;` as first statement) -/
  | size (n : Nat)
  /-- `if (NULL != a) { txMsg.data[k] = (uint8_t)((*a >> sh) & 0xff); ... size += n; }` -/
  | opt (a : Nat) (l : List (Nat × Nat)) (n : Nat)
  /-- `for(byteIndex = 0; byteIndex < n; ++byteIndex) { txMsg.data[off + byteIndex] = a[byteIndex]; size += 1; if (VSCP_L1_DATA_SIZE <= size) { break; } }` -/
  | loop (off a n : Nat)
  /-- `if (NULL != a) { for(...) ... }` -/
  | optLoop (off a n : Nat)
  /-- `txMsg.data[k] = vscp_data_coding_getFormatByte(VSCP_DATA_CODING_REPRESENTATION_NORMALIZED_INTEGER, unit, index);` -/
  | format (k unit index : Nat)
  /-- `txMsg.dataSize += vscp_data_coding_int32ToNormalizedInteger(a, e, &txMsg.data[k], VSCP_L1_DATA_SIZE - txMsg.dataSize);` -/
  | norm (k a e : Nat)
deriving DecidableEq

/-- A send function: name without the prefix `vscp_evt_`, class and type handed over to `vscp_core_prepareTxMessage`, parameters, statements between the declarations
and `txMsg.dataSize = size; return vscp_core_sendEvent(&txMsg);`.  The priority is `VSCP_PRIORITY_3_NORMAL` everywhere. -/
structure Fn where
  name : String
  cls : Nat
  typ : Nat
  sig : List Ty
  body : List Stmt
deriving DecidableEq

/-- The arguments of a call: the bits of argument `i` (of the value it points to), is it a null pointer, byte `j` of the array it points to. -/
structure Args where
  num : Nat → Nat
  null : Nat → Bool
  arr : Nat → Nat → U8

/-- The platform: byte order and size of `float_t` and `double_t`. -/
structure Plat where
  littleEndian : Bool
  sizeofFloat : Nat
  sizeofDouble : Nat

/-- Byte `j` of the memory of an object with `w` bytes. -/
def memByte (le : Bool) (w v j : Nat) : U8 := BitVec.ofNat 8 (v >>> (8 * if le then j else w - 1 - j))

/-- The result of the statements of a send function: undefined behaviour, return with `FALSE`, a message to be sent. -/
inductive Res
  | ub
  | refused
  | ok (data : Vector U8 8) (size : U8)

/-- `txMsg.data[k] = x;` `none`: behind the end. -/
def put (data : Vector U8 8) (k : Nat) (x : U8) : Option (Vector U8 8) := if h : k < 8 then some (data.set k x) else none

/-- The assignments of `Stmt.opt`. -/
def putAll (v : Nat) : List (Nat × Nat) → Vector U8 8 → Option (Vector U8 8)
  | [], data => some data
  | (k, sh) :: l, data =>
    match put data k (BitVec.ofNat 8 (v >>> sh)) with
    | none => none
    | some data => putAll v l data

/-- The loop of `Stmt.loop`, from `byteIndex = i` on. -/
def copyLoop (src : Nat → U8) (n off : Nat) (i : Nat) (data : Vector U8 8) (size : U8) : Option (Vector U8 8 × U8) :=
  if _h : i < n then
    match put data (off + i) (src i) with
    | none => none
    | some data => if 8 ≤ (size + 1).toNat then some (data, size + 1) else copyLoop src n off (i + 1) data (size + 1)
  else some (data, size)
termination_by n - i

/-- The statements of a send function (src/events/*.c).  `data` are the bytes of the message, not initialised at first; `size` is the local variable `size` or
`txMsg.dataSize`. -/
def exec (p : Plat) (a : Args) : List Stmt → Vector U8 8 → U8 → Res
  | [], data, size => .ok data size
  | .need x n :: r, data, size =>
    if a.null x = true ∨ BitVec.ofNat 8 (a.num n) = (0 : U8) then .refused else exec p a r data size
  | .byte k x sh :: r, data, size =>
    match put data k (BitVec.ofNat 8 (a.num x >>> sh)) with
    | none => .ub
    | some data => exec p a r data size
  | .mem k x j double :: r, data, size =>
    let w := if double then p.sizeofDouble else p.sizeofFloat
    if j < w then
      match put data k (memByte p.littleEndian w (a.num x) j) with
      | none => .ub
      | some data => exec p a r data size
    else .ub
  | .size n :: r, data, size => exec p a r data (size + BitVec.ofNat 8 n)
  | .opt x l n :: r, data, size =>
    if a.null x then exec p a r data size
    else
      match putAll (a.num x) l data with
      | none => .ub
      | some data => exec p a r data (size + BitVec.ofNat 8 n)
  | .loop off x n :: r, data, size =>
    match copyLoop (a.arr x) (a.num n % 256) off 0 data size with
    | none => .ub
    | some (data, size) => exec p a r data size
  | .optLoop off x n :: r, data, size =>
    if a.null x then exec p a r data size
    else
      match copyLoop (a.arr x) (a.num n % 256) off 0 data size with
      | none => .ub
      | some (data, size) => exec p a r data size
  | .format k unit index :: r, data, size =>
    match put data k (DataCoding.getFormatByte 4 (BitVec.ofNat 8 (a.num unit)) (BitVec.ofNat 8 (a.num index))) with
    | none => .ub
    | some data => exec p a r data size
  | .norm k x e :: r, data, size =>
    match DataCoding.int32ToNormalizedInteger (BitVec.ofNat 32 (a.num x)) (BitVec.ofNat 8 (a.num e)) (data.toList.drop k) (8 - size) with
    | none => .ub
    | some (n, m) =>
      exec p a r (Vector.ofFn fun i => if i.val < k then data[i] else m.getD (i.val - k) 0) (size + n)

/-- A call of a send function.  `stack` are the bytes of the uninitialised message.  `none`: undefined behaviour. -/
def send (c : Ctx) (p : Plat) (f : Fn) (a : Args) (stack : Vector U8 8) : M (Option Bool) :=
  match exec p a f.body stack 0 with
  | .ub => pure none
  | .refused => pure (some false)
  | .ok data size => do
    let m ← Core.prepareTxMessage c (BitVec.ofNat 16 f.cls) (BitVec.ofNat 8 f.typ) 3
    let status ← Core.sendEvent c { m with size := size, data := data }
    pure (some status)

end Vscp.Events
