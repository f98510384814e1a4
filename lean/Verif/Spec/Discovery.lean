/-
Specification of the nickname discovery: probes, acknowledges.
-/
import Verif.Spec.States

namespace Vscp.Spec

/-- The nicknames in successfully transmitted "new node online / probe" events (class 0, type 2), in order. -/
def probesOf (t : List Out) : List U8 :=
  t.filterMap fun o => match o with
    | .tx m true => if m.cls = 0 ∧ m.typ = 2 then some m.data[0] else none
    | _ => none

/-- The nicknames probed successfully in the cycles of a history which starts in the state `w`. -/
def probed (c : Ctx) : W → List Op → List U8
  | _, [] => []
  | w, .process rx :: ops =>
    probesOf ((stepOp c (.process rx) w).2.out.drop w.out.length) ++ probed c (stepOp c (.process rx) w).2 ops
  | w, op :: ops => probed c (stepOp c op w).2 ops

/-- The event is a probe acknowledge (class 0, type 3) of the node with the given nickname. -/
def ackFrom (m : Msg) (q : U8) : Prop := m.cls = 0 ∧ m.typ = 3 ∧ m.oAddr = q

/-- In one of the cycles of a history which starts in the state `w`, the node receives an acknowledge of nickname `q`. -/
def Acked (c : Ctx) (w : W) (ops : List Op) (q : U8) : Prop :=
  ∃ pre rx post m, ops = pre ++ .process rx :: post ∧ (Transport.readMessage c rx (runOps c pre w)).1 = some m ∧ ackFrom m q

/-- `n` nicknames from the given one on, ascending. -/
def nicknames (first : U8) (n : Nat) : List U8 := (List.range n).map fun i => first + BitVec.ofNat 8 i

/-- Over the history `mid` from the state `w` on, the node probed exactly the nicknames from the first one of the configuration
up to `last` (exclusive), in ascending order, and each of them was acknowledged. -/
structure Scanned (c : Ctx) (w : W) (mid : List Op) (last : Nat) : Prop where
  from_first : c.startProbe.toNat ≤ last
  in_order : probed c w mid = nicknames c.startProbe (last - c.startProbe.toNat)
  all_taken : ∀ q : U8, c.startProbe.toNat ≤ q.toNat → q.toNat < last → Acked c w mid q

/-- The history `ops` from the state `w` on ends with a complete search which found `p`: a scan of all nicknames below `p`
which were all acknowledged, one probe of `p`, and then the time `post` in which nothing else was probed, nobody acknowledged
`p`, and no less time passed than `least`. -/
def FoundFree (c : Ctx) (w : W) (ops : List Op) (p : U8) (least : Nat) : Prop :=
  ∃ pre mid rx post, ops = pre ++ (mid ++ .process rx :: post) ∧
    Scanned c (runOps c pre w) mid p.toNat ∧
    probed c (runOps c (pre ++ mid) w) [.process rx] = [p] ∧
    probed c (runOps c (pre ++ mid ++ [.process rx]) w) post = [] ∧
    (∀ ok, .init ok ∉ post) ∧
    ¬Acked c (runOps c (pre ++ mid ++ [.process rx]) w) post p ∧
    least ≤ elapsed post

/-- The cycles of a history in front of which time has passed since the cycle before (`b`: time has passed already). -/
def timed : Bool → List Op → Nat
  | _, [] => 0
  | b, .tick ms :: l => timed (b || decide (1 ≤ ms)) l
  | b, .process _ :: l => (if b then 1 else 0) + timed false l
  | b, _ :: l => timed b l

/-- The node is looking for a nickname (by itself, or waiting for the segment master to assign one). -/
def looking (w : W) : Prop := w.v.st = .init ∨ w.v.st = .preActive

instance (w : W) : Decidable (looking w) := inferInstanceAs (Decidable (_ ∨ _))

end Vscp.Spec
