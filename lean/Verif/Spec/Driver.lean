/-
What is expected of the drivers of the examples.
-/
import Verif.Model.Driver

namespace Vscp.Spec.Drv
open Vscp.Driver

/-- The time which passes in a history of the timer driver. -/
def elapsed : List Timer.Op → Nat
  | [] => 0
  | .process p :: ops => p.toNat + elapsed ops
  | _ :: ops => elapsed ops

/-- Does the call start or stop timer `id`? -/
def concerns (id : U8) : Timer.Op → Bool
  | .start i _ => i == id
  | .stop i => i == id
  | _ => false

/-- Does the call start or stop another timer than `id`? -/
def foreign (id : U8) : Timer.Op → Bool
  | .start i _ => i != id
  | .stop i => i != id
  | _ => false

/-- The number of creations. -/
def creations (ops : List Timer.Op) : Nat := (ops.filter (· == .create)).length

/-- Does the call start or stop software timer `id`? -/
def swConcerns (id : U8) : SwTimer.Op → Bool
  | .start i _ _ => i == id
  | .stop i => i == id
  | _ => false

/-- The number of ticks of the software timers in a history. -/
def ticks (ops : List SwTimer.Op) : Nat := (ops.filter (· == .process)).length

/-- The results of the queries of a repeating timer with period `v`: timeout, if at least `v` ticks have passed since the last timeout or the start;
`k` ticks have passed so far. -/
def polls (id : U8) (v : Nat) : Nat → List SwTimer.Op → List Bool
  | _, [] => []
  | k, .process :: ops => polls id v (k + 1) ops
  | k, .getStatus i :: ops =>
    if i = id then decide (v ≤ k) :: polls id v (if v ≤ k then 0 else k) ops else polls id v k ops
  | k, _ :: ops => polls id v k ops

/-- Milliseconds since midnight. -/
def toMs (t : Clock.Time) : Nat := ((t.h.toNat * 60 + t.m.toNat) * 60 + t.s.toNat) * 1000 + t.ms.toNat

/-- A time of the day. -/
def valid (t : Clock.Time) : Prop := t.ms.toNat < 1000 ∧ t.s.toNat < 60 ∧ t.m.toNat < 60 ∧ t.h.toNat < 24

/-- Milliseconds since the start of day 0 (the day counter has 8 bit). -/
def total (s : Clock.State) : Nat := s.day.toNat * 86400000 + toMs s.t

/-- The 29 bit CAN identifier of an event: priority, hard-coded flag, class, type, origin (from the highest to the lowest bits). -/
def canId (m : Msg) : Nat :=
  m.prio.toNat * 67108864 + m.hard.toNat * 33554432 + m.cls.toNat * 65536 + m.typ.toNat * 256 + m.oAddr.toNat

/-- Has the event a place in the identifier and in the 8 data bytes of a frame? -/
def Fits (m : Msg) : Prop := m.prio.toNat < 8 ∧ m.cls.toNat < 512 ∧ m.size.toNat ≤ 8

/-- Is `m'` the same event as `m`?  Bytes behind the size do not count. -/
def Same (m m' : Msg) : Prop :=
  m'.prio = m.prio ∧ m'.hard = m.hard ∧ m'.cls = m.cls ∧ m'.typ = m.typ ∧ m'.oAddr = m.oAddr ∧ m'.size = m.size ∧
    ∀ (i : Nat) (h : i < 8), i < m.size.toNat → m'.data[i] = m.data[i]

instance (m m' : Msg) : Decidable (Same m m') := by unfold Same; infer_instance

end Vscp.Spec.Drv
