/-
Specification of the send functions: what a call puts on the network, in terms of the declaration of the function.
-/
import Verif.Model.EventTable
import Verif.Spec.EventTypes

namespace Vscp.Spec.Evt
open Vscp.Events

/-- The `n` low bytes of a number, most significant byte first. -/
def be : Nat → Nat → List U8
  | 0, _ => []
  | n + 1, v => BitVec.ofNat 8 (v / 256 ^ n) :: be n v

/-- The bytes of the array argument `i`; the next argument is its size. -/
def bytesOf (a : Args) (i : Nat) : List U8 := (List.range (a.num (i + 1) % 256)).map (a.arr i)

/-- The bytes of one argument, if it stands at position `i`. -/
def argBytes (a : Args) (i : Nat) : Ty → List U8
  | .u8 | .i8 => be 1 (a.num i)
  | .u16 => be 2 (a.num i)
  | .u32 | .i32 | .f32 => be 4 (a.num i)
  | .f64 => be 8 (a.num i)
  | .opt8 => if a.null i then [] else be 1 (a.num i)
  | .opt16 => if a.null i then [] else be 2 (a.num i)
  | .opt32 => if a.null i then [] else be 4 (a.num i)
  | .arr | .optArr => if a.null i then [] else bytesOf a i
  | .len => []

/-- All arguments one after the other, from position `i` on. -/
def params (a : Args) : Nat → List Ty → List U8
  | _, [] => []
  | i, t :: r => argBytes a i t ++ params a (i + 1) r

/-- Is a byte array which is not optional missing or empty? -/
def missing (a : Args) : Nat → List Ty → Bool
  | _, [] => false
  | i, .arr :: r => (a.null i || a.num (i + 1) % 256 == 0) || missing a (i + 1) r
  | i, _ :: r => missing a (i + 1) r

/-- The platform stores numbers with the lowest byte first, `float_t` is the 32 bit and `double_t` the 64 bit format. -/
structure Ieee (p : Plat) : Prop where
  le : p.littleEndian = true
  float : p.sizeofFloat = 4
  double : p.sizeofDouble = 8

/-- Number of bytes of a scalar (0: not a scalar). -/
def width : Ty → Nat
  | .u8 | .i8 => 1
  | .u16 => 2
  | .u32 | .i32 | .f32 => 4
  | .f64 => 8
  | _ => 0

/-- The value of a byte string, most significant byte first. -/
def value : List U8 → Nat
  | [] => 0
  | b :: bs => b.toNat * 256 ^ bs.length + value bs

/-- The receiver: the values of the scalar parameters, and the bytes behind them. -/
def recover : List Ty → List U8 → List Nat × List U8
  | [], l => ([], l)
  | t :: r, l =>
    if width t = 0 then ([], l)
    else
      let x := recover r (l.drop (width t))
      (value (l.take (width t)) :: x.1, x.2)

/-- The values of the scalar arguments in front of the first one which is not scalar, as their types store them. -/
def scalars (a : Args) : Nat → List Ty → List Nat
  | _, [] => []
  | i, t :: r => if width t = 0 then [] else a.num i % 256 ^ width t :: scalars a (i + 1) r

/-- The bytes of the arguments from the first one on which is not scalar. -/
def rest (a : Args) : Nat → List Ty → List U8
  | _, [] => []
  | i, t :: r => if width t = 0 then params a i (t :: r) else rest a (i + 1) r

/-- The number of bytes of the scalar arguments in front of the first one which is not scalar. -/
def scalarWidth : List Ty → Nat
  | [] => 0
  | t :: r => if width t = 0 then 0 else width t + scalarWidth r

/-- `m` is the event of a call of `f` in state `w` with the data bytes `l`: class and type of the function, normal priority, the nickname of the node. -/
structure IsEvent (c : Ctx) (w : W) (f : Fn) (l : List U8) (m : Msg) : Prop where
  cls : m.cls.toNat = f.cls
  typ : m.typ.toNat = f.typ
  prio : m.prio = 3
  oAddr : m.oAddr = w.v.nick
  hard : m.hard = c.hardCoded
  size : m.size.toNat = l.length
  small : l.length ≤ 8
  data : m.data.toList.take m.size.toNat = l

/-- The call transmits exactly one frame, `m`, and returns whether the transmission succeeded. -/
structure Transmits (c : Ctx) (w : W) (r : Option Bool × W) (m : Msg) : Prop where
  status : r.1 = some (c.txOk w.out.length)
  out : r.2.out = w.out ++ [.tx m (c.txOk w.out.length)]

/-- All send functions. -/
def functions : List Fn := Table.modules.flatMap (·.2)

end Vscp.Spec.Evt
