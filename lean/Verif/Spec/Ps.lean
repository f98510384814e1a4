/-
Specification of the persistent storage: the fields, their sizes and their order.
-/
import Verif.Model.World

namespace Vscp.Spec

/-- The fields kept in the persistent memory. -/
inductive Field
  | bootFlag | nickname | segmentCrc | controlFlags | userId | guid | zone | subZone | manufacturerId | manufacturerSubId
  | mdfUrl | familyCode | deviceType | logId | matrix | matrixExtension | matrixNextGeneration
deriving DecidableEq

/-- All fields, in the order in which they are stored. -/
def fields : List Field :=
  [.bootFlag, .nickname, .segmentCrc, .controlFlags, .userId, .guid, .zone, .subZone, .manufacturerId, .manufacturerSubId,
   .mdfUrl, .familyCode, .deviceType, .logId, .matrix, .matrixExtension, .matrixNextGeneration]

/-- Number of bytes if the field is present. -/
def present (p : Bool) (n : Nat) : Nat := if p then n else 0

/-- The number of bytes of a field in a configuration. -/
def fieldSize (c : Cfg) : Field → Nat
  | .bootFlag => present c.bootLoader 1
  | .nickname => 1
  | .segmentCrc => 1
  | .controlFlags => 1
  | .userId => 5
  | .guid => present c.guidPs 16
  | .zone => present c.zonePs 1
  | .subZone => present c.subZonePs 1
  | .manufacturerId => present c.manuPs 4
  | .manufacturerSubId => present c.manuSubPs 4
  | .mdfUrl => present c.mdfPs 32
  | .familyCode => present c.famPs 4
  | .deviceType => present c.typePs 4
  | .logId => present c.logger 1
  | .matrix => present c.dm (c.dmRows * 8)
  | .matrixExtension => present c.dmExt (c.dmRows * 8)
  | .matrixNextGeneration => present c.dmNg c.ngSize

/-- The fields before `f`. -/
def before (f : Field) : List Field := fields.takeWhile (· ≠ f)

/-- Fields which are accessed with an index. -/
def Field.indexed : Field → Bool
  | .userId | .guid | .manufacturerId | .manufacturerSubId | .mdfUrl | .familyCode | .deviceType | .matrix
  | .matrixExtension | .matrixNextGeneration => true
  | _ => false

end Vscp.Spec
