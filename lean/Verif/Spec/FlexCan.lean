/-
What a user expects from the CAN adapter of the ARM example: the node hears the events on the bus, and its own events are sent.
-/
import Verif.Model.FlexCan
import Verif.Spec.Driver

namespace Vscp.Spec.Flex
open Vscp.Driver Vscp.Driver.Flex Vscp.Spec.Drv

/-- The frame of an event without data: 29 bit identifier, data frame. -/
def frameOf (m : Msg) : Frame := ⟨true, false, BitVec.ofNat 32 (canId m), 0, 0, 0⟩

/-- The frames of a history. -/
def frames : List Move → List Frame
  | [] => []
  | .bus f :: l => f :: frames l
  | _ :: l => frames l

/-- The events of a history which the node sends. -/
def writes : List Move → List Msg
  | [] => []
  | .write m :: l => m :: writes l
  | _ :: l => writes l

/-- A history without data: frames on the bus and events sent have no data. -/
def Plain (l : List Move) : Prop := (∀ f ∈ frames l, f.dlc = 0) ∧ ∀ m ∈ writes l, m.size = 0

/-- An event with identifier 0: priority 0, not hard coded, class 0, type 0, nickname 0. -/
def Zero (m : Msg) : Prop := m.prio = 0 ∧ m.hard = false ∧ m.cls = 0 ∧ m.typ = 0 ∧ m.oAddr = 0

/-- The identifier of a frame, without its format. -/
def ident (f : Frame) : Nat := f.id.toNat % (if f.ide then 2 ^ 29 else 2 ^ 11)

/-- What a user expects: whatever frame of an event without data is on the bus behind whatever history, the node delivers this event if the
application keeps reading. -/
def Hears (mb : Nat → Mb) : Prop :=
  ∀ l d s, history mb l = some (d, s) → Plain l → ∀ m old, Fits m → m.size = 0 →
    ∃ n d' s', run (.bus (frameOf m) :: List.replicate n (.read old)) s = some (d', s') ∧ ∃ m' ∈ d', Same m m'

end Vscp.Spec.Flex
