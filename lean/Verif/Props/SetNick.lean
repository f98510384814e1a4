/-
Property theorems: an active node which is told a new nickname takes it and confirms that (C130), and what that means for invalid nicknames (C33).
-/
import Verif.Props.Nickname
import Verif.Props.Drop

namespace Vscp.SetNick
open M Spec Transport Safety Nickname

/-- The handling of a set nickname event for the node. -/
theorem handler_set {c : Ctx} {w : W} {m : Msg} {v : U8} (hm : Request m 6 [w.v.nick, v]) (hv : v ≠ 0) :
    (Core.handleProtocolClassType c m w).2.v.nick = v ∧ (Core.handleProtocolClassType c m w).2.v.st = w.v.st ∧
    (Core.handleProtocolClassType c m w).2.ps = (fun x => if x = Ps.addrNickname c then v else w.ps x) ∧
    ∃ r, (Core.handleProtocolClassType c m w).2.out = w.out ++ [.psW (Ps.addrNickname c) v, .tx (event c v 7 7 []) r] := by
  have d0 : m.data[0] = w.v.nick := hm.at 0 (by simp) (by simp)
  have d1 : m.data[1] = v := hm.at 1 (by simp) (by simp)
  have hsz : m.size = 2 := hm.size
  rw [handler6 hm.typ, Core.handleSetNicknameId, bind_run, get_run, whenM_run, if_pos ⟨hsz, d0.symm, fun h => hv (by rw [← d1, ← h]; rfl)⟩, bind_run, writeNick_run, d1]
  unfold Core.txVoid Core.tx
  simp only [bind_run, get_run, writeMessage_run, pure_run]
  rw [if_neg (fun h => h.2 (by decide)), countErr_eq, beforeTx_frame]
  exact ⟨rfl, rfl, rfl, _, List.append_assoc ..⟩

/-- C130: an active node which is told a new nickname (other than 0) takes it, stores it, changes nothing else in its persistent memory, stays active, and confirms it, first of all frames of this cycle, as the node
with the new nickname. -/
theorem C130_taken {c : Ctx} {rx : Option Msg} {w : W} {m : Msg} {v : U8} (h : Takes c rx w m) (hm : Request m 6 [w.v.nick, v]) (hv : v ≠ 0) :
    (Core.process c rx w).2.v.st = .active ∧ (Core.process c rx w).2.v.nick = v ∧ (∀ x, (Core.process c rx w).2.ps x = if x = Ps.addrNickname c then v else w.ps x) ∧
    ∃ t, (Core.process c rx w).2.out = w.out ++ t ∧ (frames t).head? = some (event c v 7 7 []) := by
  obtain ⟨w1, t1, ht1, ho1, hs, htail⟩ := takes_cycle h hm.cls
  have hn1 : w1.v.nick = w.v.nick := hs .nick (by decide)
  have hst : w1.v.st = .active := (hs .st (by decide)).trans h.1
  have hps : w1.ps = w.ps := hs .ps (by decide)
  obtain ⟨q1, q2, q3, r, q4⟩ := handler_set (c := c) (w := w1) (m := m) (by rw [hn1]; exact hm) hv
  obtain ⟨t2, ht2, -⟩ := htail.sends
  refine ⟨(htail.steps.same .st (by decide)).trans (q2.trans hst), (htail.steps.same .nick (by decide)).trans q1, fun x => ?_, ?_⟩
  · have := htail.steps.same .ps (by decide)
    rw [show (Core.process c rx w).2.ps = _ from this, q3, hps]
  · refine ⟨t1 ++ ([.psW (Ps.addrNickname c) v, .tx (event c v 7 7 []) r] ++ t2), by rw [ht2, q4, ht1]; simp only [List.append_assoc], ?_⟩
    rw [frames_append, frames_append, frames_proto ho1]
    rfl

/-- C130: all other events of this type change nothing: those for another node, those which are too short or too long, and those which assign the nickname 0. -/
theorem C130_others {c : Ctx} {rx : Option Msg} {w : W} {m : Msg} (h : Takes c rx w m) (hm : m.cls = 0) (ht : m.typ = 6) (hn : ¬∃ v, v ≠ 0 ∧ Request m 6 [w.v.nick, v]) :
    (Core.process c rx w).2.v.st = .active ∧ (Core.process c rx w).2.v.nick = w.v.nick ∧ (Core.process c rx w).2.ps = w.ps := by
  obtain ⟨w1, t1, ht1, ho1, hs, htail⟩ := takes_cycle h hm
  have hn1 : w1.v.nick = w.v.nick := hs .nick (by decide)
  have e : (Core.handleProtocolClassType c m w1).2 = w1 := by
    rw [handler6 ht, Core.handleSetNicknameId, bind_run, get_run, whenM_run, if_neg]
    rintro ⟨h1, h2, h3⟩
    refine hn ⟨m.data[1], fun e => h3 e.symm, hm, ht, h1, ?_⟩
    rw [← hn1, h2]
    apply List.ext_getElem
    · simp
    · intro i hi hi'
      simp only [List.length_cons, List.length_nil] at hi'
      have : i = 0 ∨ i = 1 := by omega
      rcases this with rfl | rfl <;> simp
  rw [e] at htail
  exact ⟨(htail.steps.same .st (by decide)).trans ((hs .st (by decide)).trans h.1), (htail.steps.same .nick (by decide)).trans hn1, (htail.steps.same .ps (by decide)).trans (hs .ps (by decide))⟩

/-- C33 is violated by every active node: told the nickname 0xFF, it is active with it. -/
theorem C33_told_violated {c : Ctx} {rx : Option Msg} {w : W} {m : Msg} (h : Takes c rx w m) (hm : Request m 6 [w.v.nick, 0xFF]) : ¬validNick (Core.process c rx w).2 := by
  obtain ⟨h1, h2, -⟩ := C130_taken h hm (by decide)
  intro hv
  have := (hv h1).2
  rw [h2] at this
  revert this
  decide

/-- C33 is violated by every active node: its application restores the factory settings, and it is active with the nickname 0xFF. -/
theorem C33_restored_violated (c : Ctx) {w : W} (h : w.v.st = .active) : ¬validNick (stepOp c .restore w).2 := by
  intro hv
  have e : (stepOp c .restore w).2 = (Core.restoreFactoryDefaultSettings c w).2 := rfl
  rw [e, restore_run] at hv
  have := (hv h).2
  revert this
  show ¬((0xFF : U8).toNat ≤ 254)
  decide

/-- The hypotheses of `C130_taken` and `C33_told_violated` are met by a node with the nickname 5 which is told 9 or 0xFF, those of `C130_others` by one which is told 0, those of `C33_restored_violated` by
this node, too. -/
example : let w := node Ex.ctx allOk (mem 0x60) [.process none]
    (∀ v, Takes Ex.ctx (some (Ex.msg 0 6 0 [5, v])) w (Ex.msg 0 6 0 [5, v])) ∧ Request (Ex.msg 0 6 0 [5, 9]) 6 [w.v.nick, 9] ∧ Request (Ex.msg 0 6 0 [5, 0xFF]) 6 [w.v.nick, 0xFF] ∧
      (¬∃ v, v ≠ 0 ∧ Request (Ex.msg 0 6 0 [5, 0]) 6 [w.v.nick, v]) ∧ w.v.st = .active := by
  refine ⟨fun v => ⟨by decide +kernel, rfl, fun h => (by revert h; decide)⟩, ⟨by decide, by decide, by decide, by decide +kernel⟩, ⟨by decide, by decide, by decide, by decide +kernel⟩, ?_, by decide +kernel⟩
  rintro ⟨v, h1, h2⟩
  have : (Ex.msg 0 6 0 [5, 0]).data[1] = v := h2.at 1 (by simp) (by simp)
  exact h1 (this.symm.trans (by decide))

end Vscp.SetNick
