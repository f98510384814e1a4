/-
The settings of a node: what the registers which keep their values contain, and what the events a node receives make of them.
-/
import Verif.Spec.LastWrite
import Verif.Spec.Trace
import Verif.Spec.Dm

namespace Vscp.Spec

/-- The settings: node control flags, user id, selected page, bytes of the decision matrix and of the next generation rules. -/
structure Settings where
  flags : U8
  user : Nat → U8
  page : Nat
  dm : Nat → U8
  ng : Nat → U8

/-- The byte of the decision matrix behind a register: the matrix is a block of registers of its page. -/
def dmByte (c : Cfg) (page addr : Nat) : Option Nat :=
  if c.dm = true ∧ page = c.dmPage ∧ c.dmOffset.toNat ≤ addr ∧ addr < 8 * c.dmRows then some (addr - c.dmOffset.toNat) else none

/-- The byte of the next generation rules behind a register. -/
def ngByte (c : Cfg) (page addr : Nat) : Option Nat :=
  if c.dmNg = true ∧ page = c.ngPage ∧ addr < c.ngSize then some addr else none

namespace Settings

/-- One byte is written to a register.  The registers from 0x80 on of page 0 are those of the protocol: flags, user id and page select keep what
is written; the others are read-only (but for the factory restore, which is dealt with separately).  Other registers are written only if the flags
enable it. -/
def write (c : Cfg) (s : Settings) (page addr : Nat) (v : U8) : Settings :=
  if page = 0 ∧ 0x80 ≤ addr then
    if addr = 0x83 then { s with flags := v }
    else if 0x84 ≤ addr ∧ addr ≤ 0x88 then { s with user := fun i => if i = addr - 0x84 then v else s.user i }
    else if addr = 0x92 then { s with page := v.toNat * 256 + s.page % 256 }
    else if addr = 0x93 then { s with page := s.page / 256 * 256 + v.toNat }
    else s
  else if writeEnable s.flags = false then s
  else match dmByte c page addr with
    | some b => { s with dm := fun i => if i = b then v else s.dm i }
    | none =>
      match ngByte c page addr with
      | some b => { s with ng := fun i => if i = b then v else s.ng i }
      | none => s

/-- The contents of a register, if it is one of these. -/
def read (c : Cfg) (s : Settings) (page addr : Nat) : Option U8 :=
  if page = 0 ∧ 0x80 ≤ addr then
    if addr = 0x83 then some s.flags
    else if 0x84 ≤ addr ∧ addr ≤ 0x88 then some (s.user (addr - 0x84))
    else if addr = 0x92 then some (BitVec.ofNat 8 (s.page / 256))
    else if addr = 0x93 then some (BitVec.ofNat 8 (s.page % 256))
    else none
  else match dmByte c page addr with
    | some b => some (s.dm b)
    | none => (ngByte c page addr).map s.ng

/-- Bytes are written to one register after the other of a page, up to its end. -/
def writePage (c : Cfg) (page : Nat) : Settings → Nat → List U8 → Settings
  | s, _, [] => s
  | s, r, v :: vs => if r < 256 then writePage c page (s.write c page r v) (r + 1) vs else s

/-- Bytes are written to one register after the other of the selected page, up to its end.  (The page may be selected by one of these bytes.) -/
def writeSelected (c : Cfg) : Settings → Nat → List U8 → Settings
  | s, _, [] => s
  | s, r, v :: vs => if r < 256 then writeSelected c (s.write c s.page r v) (r + 1) vs else s

/-- A register of page 0 is read, changed, and written. -/
def modify (c : Cfg) (s : Settings) (r : Nat) (g : U8 → U8) : Settings := match s.read c 0 r with | some v => s.write c 0 r (g v) | none => s

/-- What the events which write registers make of the settings of the node they are sent to (`l`: the data behind its nickname): write register, page
write, increment and decrement register, extended page write. -/
def request (c : Cfg) (s : Settings) : (typ : Nat) → (l : List U8) → Settings
  | 11, [a, v] => s.write c 0 a.toNat v
  | 25, r :: vs => s.writeSelected c r.toNat vs
  | 29, [a] => s.modify c a.toNat (· + 1)
  | 30, [a] => s.modify c a.toNat (· - 1)
  | 38, p1 :: p0 :: r :: vs => s.writePage c (p1.toNat * 256 + p0.toNat) r.toNat vs
  | _, _ => s

/-- What a protocol event makes of the settings of the node `nick`. -/
def event (c : Cfg) (nick : U8) (m : Msg) (s : Settings) : Settings :=
  match payload m with
  | [] => s
  | n :: l => if n = nick then s.request c m.typ.toNat l else s

/-- The factory settings.  (The code clears the first `dmRows + 7` bytes of the matrix only and leaves the bytes behind as they are: C50.) -/
def factory (c : Cfg) (s : Settings) : Settings where
  flags := 0xA0
  user := fun _ => 0
  page := 0
  dm := fun b => if b < c.dmRows + 7 then 0 else s.dm b
  ng := fun _ => 0

/-- The settings after an operation, but for a restore of the factory settings: only events for the node change them. -/
def after (c : Ctx) (w : W) (s : Settings) : Op → Settings
  | .process rx =>
    match (Transport.readMessage c rx w).1 with
    | some m => if Takes c rx w m ∧ m.cls = 0 then s.event c w.v.nick m else s
    | none => s
  | _ => s

/-- The settings after an operation which the node has gone through from `w` to `w'`. -/
def next (c : Ctx) (w w' : W) (s : Settings) (op : Op) : Settings := if factoryReset w w' then (s.after c w op).factory c else s.after c w op

/-- The settings after a history. -/
def history (c : Ctx) : List Op → W → Settings → Settings
  | [], _, s => s
  | op :: ops, w, s => history c ops (stepOp c op w).2 (s.next c w (stepOp c op w).2 op)

/-- The settings after a history of an application which calls the framework in its callbacks. -/
def historyC (c : Ctx) (cb : Callbacks) : List Op → W → Settings → Settings
  | [], _, s => s
  | op :: ops, w, s => historyC c cb ops (stepOpC c cb op w).2 (s.next c w (stepOpC c cb op w).2 op)

end Settings

/-- The settings as the node has them. -/
def settings (c : Cfg) (w : W) : Settings where
  flags := w.ps (Ps.addrFlags c)
  user := fun i => if i < 5 then w.ps (Ps.addrUserId c + i) else 0
  page := w.v.page.toNat
  dm := fun b => if b < Ps.sizeDm c then w.ps (Ps.addrDm c + b) else 0
  ng := fun b => if b < Ps.sizeDmNg c then w.ps (Ps.addrDmNg c + b) else 0

/-- The decision matrix the settings describe, for a node of the given zone and sub-zone. -/
def Settings.matrix (c : Cfg) (s : Settings) (zone subZone : U8) : Dm.Matrix where
  rows := c.dmRows
  ext := false
  zone := zone
  subZone := subZone
  row := fun i k => s.dm (i * 8 + k)
  extRow := fun _ _ => 0

end Vscp.Spec
