/-
Property theorems: exactly what a rule set does whose first rule has size 0 (C53).
-/
import Verif.Props.DmNg

namespace Vscp.NgProps
open M Vscp.Spec Vscp.Spec.DmNg Vscp.DmProps Vscp.Safety Transport
open Vscp.Spec.Dm (actions)

/-- What is in the uninitialised rule buffer. -/
def dirt (c : Ctx) : List U8 := (List.range 40).map c.garbage

/-- The buffer is executed without a look at the node. -/
theorem execRule_det (buf : List U8) (m : Msg) : ∃ (l : List Out) (u : Bool),
    (∀ w, Vscp.DmNg.execRule buf m w = ((), { w with out := w.out ++ l, ub := w.ub || u })) ∧
    (l = [] ∨ ∃ a p, buf[1]? = some a ∧ buf[2]? = some p ∧ a ≠ 0 ∧ l = [.action a p m] ∧ ∃ s, buf[0]? = some s ∧ 6 ≤ s.toNat) := by
  have key : (∃ a p, buf[1]? = some a ∧ buf[2]? = some p ∧ a ≠ 0 ∧ Vscp.DmNg.execRule buf m = emit (.action a p m) ∧
      ∃ s, buf[0]? = some s ∧ 6 ≤ s.toNat) ∨ Vscp.DmNg.execRule buf m = pure () ∨ Vscp.DmNg.execRule buf m = markUb := by
    unfold Vscp.DmNg.execRule
    split
    · rename_i s a p h0 h1 h2
      split
      · rename_i h6
        split
        · rename_i ha
          split
          · exact .inl ⟨a, p, h1, h2, ha, rfl, s, h0, h6⟩
          · exact .inr (.inl rfl)
          · exact .inr (.inr rfl)
        · exact .inr (.inl rfl)
      · exact .inr (.inl rfl)
    · exact .inr (.inr rfl)
  rcases key with ⟨a, p, h1, h2, ha, he, s, h0, h6⟩ | he | he
  · refine ⟨[.action a p m], false, fun w => ?_, .inr ⟨a, p, h1, h2, ha, rfl, s, h0, h6⟩⟩
    rw [he, Bool.or_false]; rfl
  · refine ⟨[], false, fun w => ?_, .inl rfl⟩
    rw [he, Bool.or_false, List.append_nil]; rfl
  · refine ⟨[], true, fun w => ?_, .inl rfl⟩
    rw [he, Bool.or_true, List.append_nil]; rfl

theorem next_zero (c : Ctx) (buf : List U8) (w : W) (hc : w.dm.ngCnt ≠ 0) (hz : byte c w.ps w.dm.ngIdx.toNat = 0) :
    Vscp.DmNg.getNextRule c buf w = (some buf, { w with dm := { w.dm with ngCnt := w.dm.ngCnt - 1 } }) := by
  rw [Foot.ngGetNextRule_run, if_neg hc]
  simp only [readByte]
  rw [hz, if_neg (by decide)]
  simp [List.range_zero]

theorem loop_zero (c : Ctx) (m : Msg) (buf : List U8) (l : List Out) (u : Bool)
    (hx : ∀ w, Vscp.DmNg.execRule buf m w = ((), { w with out := w.out ++ l, ub := w.ub || u })) (n : Nat) :
    ∀ w : W, byte c w.ps w.dm.ngIdx.toNat = 0 → w.dm.ngCnt.toNat < n →
      ∃ d, Vscp.DmNg.rulesLoop c m n buf w =
        ((), { w with out := w.out ++ (List.replicate (w.dm.ngCnt.toNat + 1) l).flatten, ub := w.ub || u, dm := d }) := by
  induction n with
  | zero => intro _ _ h; omega
  | succ n ih =>
    intro w hz hn
    unfold Vscp.DmNg.rulesLoop
    rw [bind_run, hx]
    simp only
    by_cases hc : w.dm.ngCnt = 0
    · rw [bind_run, getNext_none c _ (.inl (by exact hc)), hc]
      exact ⟨w.dm, by simp only [show (0 : U8).toNat + 1 = 1 from rfl, List.replicate_one, List.flatten_singleton]; rfl⟩
    · rw [bind_run, next_zero c buf _ (by exact hc) (by exact hz)]
      simp only
      have hcn := cnt_pred hc
      obtain ⟨d, hd⟩ := ih { w with out := w.out ++ l, ub := w.ub || u, dm := { w.dm with ngCnt := w.dm.ngCnt - 1 } } hz (by simp only; omega)
      refine ⟨d, ?_⟩
      rw [hd, ← hcn]
      simp only [Bool.or_assoc, Bool.or_self, List.append_assoc, List.replicate_succ, List.flatten_cons]

theorem execute_zero (c : Ctx) (m : Msg) (w : W) (h0 : byte c w.ps 0 ≠ 0) (h1 : byte c w.ps 1 = 0) (l : List Out) (u : Bool)
    (hx : ∀ w, Vscp.DmNg.execRule (dirt c) m w = ((), { w with out := w.out ++ l, ub := w.ub || u })) :
    ∃ d, Vscp.DmNg.executeActions c m w =
      ((), { w with out := w.out ++ (List.replicate (byte c w.ps 0).toNat l).flatten, ub := w.ub || u, dm := d }) := by
  unfold Vscp.DmNg.executeActions Vscp.DmNg.getFirstRule
  rw [bind_run, bind_run, readByte]
  simp only
  rw [bind_run, modify_run]
  simp only
  rw [next_zero c _ _ (by exact h0) (by exact h1)]
  simp only
  obtain ⟨d, hd⟩ := loop_zero c m (dirt c) l u hx 256 { w with dm := { w.dm with ngIdx := 1, ngCnt := byte c w.ps 0 - 1 } } h1
    (by have := (byte c w.ps 0 - 1).isLt; simp only; omega)
  refine ⟨d, ?_⟩
  rw [← cnt_pred h0]
  exact hd

/-- C53, exactly for the rule sets which are missing in `C53_partial`: if rules are announced and the first one has size zero, the buffer the
code has not initialised is executed as often as rules are announced: there is either no call at all, or the same call so many times, with the
action and the parameter which happen to be in the buffer. -/
theorem C53_zero_exact (c : Ctx) (rx : Option Msg) (m : Msg) (w : W) (hng : c.dmNg = true) (hn : c.dm = true → c.dmRows ≤ 255)
    (ha : w.v.st = .active) (hr : (readMessage c rx w).1 = some m) (hm : m.size.toNat ≤ 8) :
    ∃ t0 ng t1, (stepOp c (.process rx) w).2.out =
        w.out ++ (t0 ++ ((if c.dm then Dm.calls (matrix c (memAfter w.ps t0)) m m.data.toList else []) ++ ng) ++ t1) ∧
      actions t0 = [] ∧ actions t1 = [] ∧ (m.cls ≠ 0 → t0 = [.event m]) ∧
      let B := byte c (memAfter w.ps t0)
      (B 0 ≠ 0 → B 1 = 0 →
        ng = [] ∨ ng = List.replicate (B 0).toNat (.action (c.garbage 1) (c.garbage 2) m) ∧ c.garbage 1 ≠ 0 ∧ 6 ≤ (c.garbage 0).toNat) := by
  obtain ⟨t0, ng, t1, w', h1, h2, h3, h4, h5, h6⟩ := ng_cycle c rx m w hng hn ha hr hm
  refine ⟨t0, ng, t1, h1, h2, h3, h4, fun hB0 hB1 => ?_⟩
  rw [← h5] at hB0 hB1 ⊢
  obtain ⟨l, u, hx, hl⟩ := execRule_det (dirt c) m
  obtain ⟨d, hd⟩ := execute_zero c m w' hB0 hB1 l u hx
  rw [hd] at h6
  have h7 := (List.append_cancel_left h6).symm
  rcases hl with rfl | ⟨a, p, g1, g2, g3, rfl, s, g0, g6⟩
  · left
    rw [h7]; simp
  · right
    have e : ∀ i, i < 40 → (dirt c)[i]? = some (c.garbage i) := by
      intro i hi
      unfold dirt
      rw [List.getElem?_map, List.getElem?_range hi]
      rfl
    rw [e 0 (by omega)] at g0
    rw [e 1 (by omega)] at g1
    rw [e 2 (by omega)] at g2
    cases g0; cases g1; cases g2
    exact ⟨by rw [h7]; simp [List.flatten_replicate_singleton], g3, g6⟩

/-- C53 is violated in general: whatever rule happens to be in the buffer, it is executed as often as the rule set announces rules. -/
theorem C53_any_violated (c : Ctx) (rx : Option Msg) (m : Msg) (w : W) (hng : c.dmNg = true) (hn : c.dm = true → c.dmRows ≤ 255)
    (ha : w.v.st = .active) (hr : (readMessage c rx w).1 = some m) (hm : m.size.toNat ≤ 8) (r : Rule) (hrule : RuleOk r) (rest : List U8)
    (hg : dirt c = r.bytes ++ rest) :
    ∃ t0 ng t1, (stepOp c (.process rx) w).2.out =
        w.out ++ (t0 ++ ((if c.dm then Dm.calls (matrix c (memAfter w.ps t0)) m m.data.toList else []) ++ ng) ++ t1) ∧
      actions t0 = [] ∧ actions t1 = [] ∧ (m.cls ≠ 0 → t0 = [.event m]) ∧
      let B := byte c (memAfter w.ps t0)
      (B 0 ≠ 0 → B 1 = 0 → ng = DmNg.calls (fun ch => ch.HoldsRight m m.data.toList) (List.replicate (B 0).toNat r) m) := by
  obtain ⟨t0, ng, t1, w', h1, h2, h3, h4, h5, h6⟩ := ng_cycle c rx m w hng hn ha hr hm
  refine ⟨t0, ng, t1, h1, h2, h3, h4, fun hB0 hB1 => ?_⟩
  rw [← h5] at hB0 hB1 ⊢
  have hx : ∀ w, Vscp.DmNg.execRule (dirt c) m w =
      ((), { w with out := w.out ++ DmNg.calls (fun ch => ch.HoldsRight m m.data.toList) [r] m, ub := w.ub || false }) := by
    intro w
    rw [hg, execRule_eq hm hrule]
    simp
  obtain ⟨d, hd⟩ := execute_zero c m w' hB0 hB1 _ _ hx
  rw [hd] at h6
  rw [(List.append_cancel_left h6).symm]
  generalize (byte c w'.ps 0).toNat = n
  induction n with
  | zero => rfl
  | succ n ih => rw [List.replicate_succ, List.flatten_cons, ih, List.replicate_succ, ← calls_cons]

-- Three rules are announced, the first one has size zero: action 9 is executed three times.
example : let m := Ex.msg 10 6 9 [1, 2]
    actions (node dirty allOk (ngMem [3, 0]) [.process none, .process (some m)]).out = [.action 9 0 m, .action 9 0 m, .action 9 0 m] ∧
    byte dirty (ngMem [3, 0]) 0 = 3 ∧ byte dirty (ngMem [3, 0]) 1 = 0 ∧ (node dirty allOk (ngMem [3, 0]) [.process none]).v.st = .active := by
  decide +kernel

-- What is in the buffer there is a rule: action 9, if the nickname of the sender is not below 0.
example : RuleOk ⟨9, 0, .last ⟨.ge, .oAddr, 0⟩⟩ ∧
    dirt dirty = Rule.bytes ⟨9, 0, .last ⟨.ge, .oAddr, 0⟩⟩ ++ List.replicate 34 0 := by
  refine ⟨⟨?_, by decide⟩, by decide +kernel⟩
  intro x hx
  simp only [Chain.conds, List.mem_cons, List.not_mem_nil, or_false] at hx
  subst hx
  exact ⟨by decide, fun i h => by cases h⟩

end Vscp.NgProps
