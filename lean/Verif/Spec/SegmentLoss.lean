/-
Specification of a change of the segment in the middle of which the power is lost.
-/
import Verif.Spec.PowerLoss
import Verif.Spec.Time

namespace Vscp.Spec

/-- The memory, with another byte at a place. -/
def putByte (ps : Nat → U8) (a : Nat) (b : U8) : Nat → U8 := fun x => if x = a then b else ps x

/-- Of a change of the segment the memory knows nothing yet. -/
def SegOld (c : Cfg) (crc : U8) (ps : Nat → U8) (nick : U8) : Prop := ps (Ps.addrSegCrc c) ≠ crc ∧ ps (Ps.addrNickname c) = nick

/-- Of a change of the segment the memory knows everything: the new CRC, and that the nickname is no longer valid. -/
def SegNew (c : Cfg) (crc : U8) (ps : Nat → U8) : Prop := ps (Ps.addrSegCrc c) = crc ∧ ps (Ps.addrNickname c) = 0xFF

/-- The node looks for a nickname, beginning with the segment master. -/
def looksForNick (w : W) : Prop := w.v.st = .init ∧ w.v.ist = .probeMaster ∧ w.v.nick = 0xFF

instance (w : W) : Decidable (looksForNick w) := by unfold looksForNick; infer_instance

end Vscp.Spec
