/-
A node joins a segment whose nodes have nicknames.
-/
import Verif.Spec.Network

namespace Vscp.Spec

variable {ι : Type}

/-- What an application does in normal operation, and time: everything but to initialise the node, to restart its discovery, to restore the factory
settings, and to send events of the protocol on its own. -/
def ordinary : Op → Prop
  | .init _ | .process _ | .startNodeSegmentInit | .restore => False
  | .sendEvent m => m.cls ≠ 0
  | _ => True

/-- Nothing but the nodes is in the segment: a cycle with a frame of a node (or none), or such a call. -/
def Move.ordinary : Move ι → Prop
  | .call _ op => Spec.ordinary op
  | .cycle _ _ => True

/-- The nodes of the segment other than `d` have different nicknames, and none is the one of a segment master. -/
structure Members (d : ι) (ν : ι → U8) : Prop where
  inj : ∀ a b, a ≠ d → b ≠ d → ν a = ν b → a = b
  noMaster : ∀ a, a ≠ d → ν a ≠ 0

/-- A node other than `d` has the nickname. -/
def Taken (d : ι) (ν : ι → U8) (q : U8) : Prop := ∃ a, a ≠ d ∧ ν a = q

/-- The lowest nickname from the first one on which no other node has. -/
structure Lowest (first : U8) (d : ι) (ν : ι → U8) (q : U8) : Prop where
  valid : q ≠ 0xFF
  first_le : first.toNat ≤ q.toNat
  free : ¬Taken d ν q
  below : ∀ p : U8, first.toNat ≤ p.toNat → p.toNat < q.toNat → Taken d ν p

/-- All nicknames from the first one on are taken. -/
def Full (first : U8) (d : ι) (ν : ι → U8) : Prop := ∀ p : U8, first.toNat ≤ p.toNat → p ≠ 0xFF → Taken d ν p

/-- No frames of the protocol are on the way but announcements and probes. -/
def Settled (cs : ι → Ctx) (s : Net ι) : Prop := ∀ i, ∀ f ∈ Net.unread cs s i, f.cls ≠ 0 ∨ f.typ = 2

/-- The calls of node `d` in a history, without the events. -/
def callsOf [DecidableEq ι] (d : ι) (l : List (Move ι)) : List Op :=
  l.filterMap fun
    | .call i op => if i = d then some op else none
    | .cycle i _ => if i = d then some (.process none) else none

/-- Frames are delivered and answered in time: whenever node `d` has a cycle after its time to wait for an answer has passed, every
node has seen all frames. -/
def Timely [DecidableEq ι] (cs : ι → Ctx) (d : ι) (s : Net ι) (l : List (Move ι)) : Prop :=
  ∀ l1 b l2 q, l = l1 ++ .cycle d b :: l2 → awaits ((Net.run cs l1 s).node d) q → ((Net.run cs l1 s).node d).tm.rem .main = 0 →
    Net.silent cs (Net.run cs l1 s)

end Vscp.Spec
