/-
What is expected of the access to the persistent memory: it behaves like an array of bytes.
-/
import Verif.Model.PsAccess

namespace Vscp.Spec.PsAccess

/-- An access: one byte or several bytes, write or read. -/
inductive Acc where
  | w8 (a : U16) (v : U8)
  | r8 (a : U16)
  | wN (a : U16) (bs : List U8)
  | rN (a : U16) (n : Nat)

/-- What is read, and the array behind the access. -/
def Acc.spec (m : Nat → U8) : Acc → List U8 × (Nat → U8)
  | .w8 a v => ([], fun x => if x = a.toNat then v else m x)
  | .r8 a => ([m a.toNat], m)
  | .wN a bs => ([], fun x => if h : a.toNat ≤ x ∧ x - a.toNat < bs.length then bs[x - a.toNat] else m x)
  | .rN a n => ((List.range n).map fun i => m (a.toNat + i), m)

/-- A history of accesses: what each of them reads. -/
def spec : List Acc → (Nat → U8) → List (List U8)
  | [], _ => []
  | a :: l, m => (a.spec m).1 :: spec l (a.spec m).2

/-- Is the access inside of the first `k` bytes, with a size which can be given? -/
def Acc.inside (k : Nat) : Acc → Prop
  | .w8 a _ => a.toNat < k
  | .r8 a => a.toNat < k
  | .wN a bs => a.toNat + bs.length ≤ k ∧ bs.length < 256
  | .rN a n => a.toNat + n ≤ k ∧ n < 256

open Vscp.Driver.PsAccess in
/-- The access with the functions of a driver. -/
def Acc.exec (rd : U16 → σ → U8 × σ) (wr : U16 → U8 → σ → σ) (s : σ) : Acc → Option (List U8 × σ)
  | .w8 a v => some ([], wr a v s)
  | .r8 a => some ([(rd a s).1], (rd a s).2)
  | .wN a bs => (writeMultiple wr a (some bs) (BitVec.ofNat 8 bs.length) s).map fun s => ([], s)
  | .rN a n => (readMultiple rd a (some (List.replicate n 0)) (BitVec.ofNat 8 n) s).map fun r => (r.1.getD [], r.2)

/-- A history of accesses with the functions of a driver: what each of them reads; `none`: undefined behaviour. -/
def exec (rd : U16 → σ → U8 × σ) (wr : U16 → U8 → σ → σ) : List Acc → σ → Option (List (List U8))
  | [], _ => some []
  | a :: l, s => (a.exec rd wr s).bind fun r => (exec rd wr l r.2).map fun q => r.1 :: q

end Vscp.Spec.PsAccess
