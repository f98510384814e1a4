/-
What is expected of the CAN driver of the AVR example.
-/
import Verif.Model.CanDrv

namespace Vscp.Spec.CanDrv
open Vscp.Driver.CanDrv

/-- The frame on the bus which belongs to a frame of the application. -/
def onBus (f : Frame) : BusFrame where
  ext := f.flags.getLsbD 0
  rtr := f.flags.getLsbD 1
  id := if f.flags.getLsbD 0 then f.id.toNat % 2 ^ 29 else f.id.toNat % 2 ^ 11
  dlc := f.len
  data := if f.flags.getLsbD 1 then [] else f.byte.toList.take f.len.toNat

/-- A frame with an 11 bit identifier, or a data frame with a 29 bit identifier, with a possible length. -/
def Plain (f : Frame) : Prop := f.len.toNat ≤ 8 ∧ (f.flags.getLsbD 0 → ¬ f.flags.getLsbD 1 ∧ ¬ f.flags.getLsbD 2)

/-- A frame as the bus may carry it, with a length code up to 8. -/
def Valid (b : BusFrame) : Prop := b.id < (if b.ext then 2 ^ 29 else 2 ^ 11) ∧ b.dlc.toNat ≤ 8 ∧ b.data.length = if b.rtr then 0 else b.dlc.toNat

/-- Is the move a possible one: plain frames are sent, valid frames come over the bus? -/
def Ok : Move → Prop
  | .send f _ => Plain f
  | .rx b => Valid b
  | _ => True

/-- The identifier of a frame, with the position of its bits in the filter registers: 11 bit identifiers take the upper part. -/
def aligned (b : BusFrame) : U32 := BitVec.ofNat 32 (if b.ext then b.id * 8 else b.id * 2 ^ 21) ||| (if b.rtr then 0x04 else 0)

/-- Does the frame pass the filter: the identifier (and the remote bit) agree with the filter where the mask is set; bit 0 of the mask asks for an 11 bit identifier? -/
def passes (f0 f1 f2 f3 m0 m1 m2 m3 : U8) (b : BusFrame) : Prop :=
  (aligned b ^^^ (f0 ++ f1 ++ f2 ++ f3 : U32)) &&& (m0 ++ m1 ++ m2 ++ m3 : U32) &&& 0xFFFFFFFC = 0 ∧ (m3.getLsbD 0 → b.ext = false)

instance (f0 f1 f2 f3 m0 m1 m2 m3 : U8) (b : BusFrame) : Decidable (passes f0 f1 f2 f3 m0 m1 m2 m3 b) := by unfold passes; infer_instance

instance (b : BusFrame) : Decidable (Valid b) := by unfold Valid; infer_instance

end Vscp.Spec.CanDrv
