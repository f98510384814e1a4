/-
The steps of the handler of every type of protocol event.
-/
import Verif.Lemmas.OpSteps

namespace Vscp
open M Spec Transport

/-- The steps of the handler of a type of protocol event. -/
def typeActs (typ : Nat) : List Act :=
  match typ with
  | 1 => [.seg, .st .init, .ist, .nick, .epochSet, .timeUpdate]
  | 2 => [.tx]
  | 3 => [.st .init, .ist, .nick]
  | 6 => [.nick, .tx]
  | 8 => [.nick, .restore, .st .reset, .sec, .tm .main, .st .idle, .idleEntered]
  | 9 => [.alarm, .appRead, .tx]
  | 11 => .tx :: writeActs
  | 12 => [.tx, .st .idle, .idleEntered, .boot, .bootReq]
  | 23 => [.guid, .tm .guidDrop, .st .init, .ist, .nick, .st .reset, .sec, .tm .main]
  | 24 => [.alarm, .appRead, .tx]
  | 25 => .tx :: .ub :: .alarm :: writeActs
  | 29 => .tx :: .alarm :: .appRead :: writeActs
  | 30 => .tx :: .alarm :: .appRead :: writeActs
  | 31 => [.tx]
  | 33 => [.tx]
  | 37 => [.alarm, .appRead, .tx, .ext]
  | 38 => .tx :: .ub :: .alarm :: writeActs
  | _ => []

theorem Foot.handlerType {c : Ctx} {m : Msg} : Foot c True (typeActs m.typ.toNat) (Core.handleProtocolClassType c m) := by
  by_cases ht : m.typ.toNat ∈ [1, 2, 3, 6, 8, 9, 11, 12, 23, 24, 25, 29, 30, 31, 33, 37, 38]
  · simp only [List.mem_cons, List.not_mem_nil, or_false] at ht
    rcases ht with ht | ht | ht | ht | ht | ht | ht | ht | ht | ht | ht | ht | ht | ht | ht | ht | ht
    · rw [handler1 (ofToNat ht rfl), ht]; exact .whenM fun _ => .handleHeartbeat
    · rw [handler2 (ofToNat ht rfl), ht]; exact .handleNewNodeOnline
    · rw [handler3 (ofToNat ht rfl), ht]; exact .handleProbeAck
    · rw [handler6 (ofToNat ht rfl), ht]; exact .handleSetNicknameId
    · rw [handler8 (ofToNat ht rfl), ht]; exact .handleDropNicknameId
    · rw [handler9 (ofToNat ht rfl), ht]; exact .handleReadRegister
    · rw [handler11 (ofToNat ht rfl), ht]; exact .handleWriteRegister
    · rw [handler12 (ofToNat ht rfl), ht]; exact .handleEnterBootLoaderMode
    · rw [handler23 (ofToNat ht rfl), ht]; exact .handleGuidDropNickname
    · rw [handler24 (ofToNat ht rfl), ht]; exact .handlePageRead
    · rw [handler25 (ofToNat ht rfl), ht]; exact .handlePageWrite fun _ => trivial
    · rw [handler29 (ofToNat ht rfl), ht]; exact .handleIncrementRegister
    · rw [handler30 (ofToNat ht rfl), ht]; exact .handleDecrementRegister
    · rw [handler31 (ofToNat ht rfl), ht]; exact .handleWhoIsThere
    · rw [handler33 (ofToNat ht rfl), ht]; exact .handleGetDecisionMatrixInfo
    · rw [handler37 (ofToNat ht rfl), ht]; exact .handleExtendedPageReadRegister
    · rw [handler38 (ofToNat ht rfl), ht]; exact .handleExtendedPageWriteRegister fun _ => trivial
  · rw [handlerOther ht]; exact .pure _

/-- The events which change a component. -/
theorem typeActs_same (typ : Nat) (k : Comp) (l : List Nat)
    (h : [1, 2, 3, 6, 8, 9, 11, 12, 23, 24, 25, 29, 30, 31, 33, 37, 38].all (fun t => l.contains t || (typeActs t).all fun a => !a.touches k) = true)
    (ht : typ ∉ l) : (typeActs typ).all (fun a => !a.touches k) = true := by
  by_cases hm : typ ∈ [1, 2, 3, 6, 8, 9, 11, 12, 23, 24, 25, 29, 30, 31, 33, 37, 38]
  · have := List.all_eq_true.mp h typ hm
    rw [Bool.or_eq_true] at this
    exact this.resolve_left fun hc => ht (List.contains_iff_mem.mp hc)
  · simp only [List.mem_cons, List.not_mem_nil, or_false, not_or] at hm
    have : typeActs typ = [] := by
      unfold typeActs
      split <;> simp_all
    rw [this]; rfl

/-- A component which the handler of an event leaves unchanged. -/
theorem handler_same {c : Ctx} {m : Msg} (w : W) (k : Comp) (l : List Nat)
    (h : [1, 2, 3, 6, 8, 9, 11, 12, 23, 24, 25, 29, 30, 31, 33, 37, 38].all (fun t => l.contains t || (typeActs t).all fun a => !a.touches k) = true)
    (ht : m.typ.toNat ∉ l) : k.same w (Core.handleProtocolClassType c m w).2 :=
  (Foot.handlerType w).same k (typeActs_same _ k l h ht)

end Vscp
