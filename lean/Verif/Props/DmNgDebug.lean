/-
Error information of the decision matrix next generation: C93.
-/
import Verif.Model.DmNgDebug
import Verif.Props.DmNg

namespace Vscp.NgProps
open M Vscp.Spec Vscp.Spec.DmNg Vscp.DmProps Vscp.Safety Transport
open Vscp.DmNg (Err parseCondD decisionLoopD getDecisionResultD execRuleD rulesLoopD executeActionsD)

/-! ### Specification -/

/-- The bytes from `q` on are a rule which can be written down. -/
def Encodes (B : Nat → U8) (q : Nat) : Prop := ∃ r : Rule, RuleOk r ∧ ∀ j, j < r.bytes.length → r.bytes[j]? = some (B (q + j))

/-- The rule has a size for which there is no rule. -/
def BadSize (B : Nat → U8) (q : Nat) : Prop := (B q).toNat < 6

/-- The operator of the first condition does not exist. -/
def BadOp (B : Nat → U8) (q : Nat) : Prop := 7 ≤ (B (q + 3)).toNat % 16 ∨ 3 ≤ (B (q + 3)).toNat / 16

/-- The parameter of the first condition does not exist. -/
def BadPar (B : Nat → U8) (q : Nat) : Prop := 17 ≤ (B (q + 4)).toNat

instance (B : Nat → U8) (q : Nat) : Decidable (BadSize B q) := by unfold BadSize; infer_instance
instance (B : Nat → U8) (q : Nat) : Decidable (BadOp B q) := by unfold BadOp; infer_instance

/-- Obviously wrong: the size, or the beginning of the first condition of a rule with an action. -/
def Blatant (B : Nat → U8) (q : Nat) : Prop := BadSize B q ∨ B (q + 1) ≠ 0 ∧ (BadOp B q ∨ BadPar B q)

/-! ### The same behaviour -/

/-- How the result of a condition is combined with the result so far. -/
def comb (prev : Option U8) (result cond : Bool) : Option Bool :=
  match prev with
  | none => some cond
  | some p => if p = 0x10 then some (result && cond) else if p = 0x20 then some (result || cond) else none

theorem loop_some {rule : List U8} {size : Nat} {m : Msg} {index : Nat} {result : Bool} {prev : Option U8} {cond : Bool} {logicOp : U8} {next : Nat}
    (h : Vscp.DmNg.parseCond rule size m index = some (some (cond, logicOp, next))) :
    Vscp.DmNg.decisionLoop rule size m index result prev =
      match comb prev result cond with
      | none => some false
      | some result =>
        if logicOp = 0x10 ∧ result = false then some result
        else if logicOp = 0x20 ∧ result = true then some result
        else if logicOp = 0 then some result
        else Vscp.DmNg.decisionLoop rule size m next result (some logicOp) := by
  rw [Vscp.DmNg.decisionLoop]
  split
  · rename_i h'; rw [h] at h'; cases h'
  · rename_i h'; rw [h] at h'; cases h'
  · rename_i h'
    rw [h] at h'
    cases h'
    rfl

theorem loopD_some {rule : List U8} {size : Nat} {m : Msg} {index : Nat} {result : Bool} {prev : Option U8} {cond : Bool} {logicOp : U8} {next : Nat}
    (h : parseCondD rule size m index = some (.ok (cond, logicOp, next))) :
    decisionLoopD rule size m index result prev =
      match comb prev result cond with
      | none => some (false, some next)
      | some result =>
        if logicOp = 0x10 ∧ result = false then some (result, none)
        else if logicOp = 0x20 ∧ result = true then some (result, none)
        else if logicOp = 0 then some (result, none)
        else decisionLoopD rule size m next result (some logicOp) := by
  rw [decisionLoopD]
  split
  · rename_i h'; rw [h] at h'; cases h'
  · rename_i h'; rw [h] at h'; cases h'
  · rename_i h'
    rw [h] at h'
    cases h'
    rfl

theorem decisionD_erase (rule : List U8) (size : Nat) (m : Msg) (n : Nat) : ∀ index, size - index ≤ n → ∀ (result : Bool) (prev : Option U8),
    (decisionLoopD rule size m index result prev).map Prod.fst = Vscp.DmNg.decisionLoop rule size m index result prev := by
  have bad : ∀ index i result prev, parseCondD rule size m index = some (.error i) →
      (decisionLoopD rule size m index result prev).map Prod.fst = Vscp.DmNg.decisionLoop rule size m index result prev := by
    intro index i result prev h1
    have h2 : Vscp.DmNg.parseCond rule size m index = some none := by rw [← Vscp.DmNg.parseCondD_erase, h1]; rfl
    rw [decisionLoopD, Vscp.DmNg.decisionLoop]
    split
    · rename_i h; rw [h1] at h; cases h
    · split
      · rename_i h; rw [h2] at h; cases h
      · rfl
      · rename_i h; rw [h2] at h; cases h
    · rename_i h; rw [h1] at h; cases h
  induction n with
  | zero =>
    intro index hn result prev
    exact bad index index result prev (by unfold parseCondD; rw [if_pos (by omega)])
  | succ n ih =>
    intro index hn result prev
    cases hx : parseCondD rule size m index with
    | none =>
      have h2 : Vscp.DmNg.parseCond rule size m index = none := by rw [← Vscp.DmNg.parseCondD_erase, hx]; rfl
      rw [decisionLoopD, Vscp.DmNg.decisionLoop]
      split
      · split
        · rfl
        · rename_i h; rw [h2] at h; cases h
        · rename_i h; rw [h2] at h; cases h
      · rename_i h; rw [hx] at h; cases h
      · rename_i h; rw [hx] at h; cases h
    | some y =>
      cases y with
      | error i => exact bad index i result prev hx
      | ok y =>
        obtain ⟨cond, logicOp, next⟩ := y
        have hnx := Vscp.DmNg.parseCond_next (Vscp.DmNg.parseCondD_ok hx)
        rw [loopD_some hx, loop_some (Vscp.DmNg.parseCondD_ok hx)]
        cases comb prev result cond with
        | none => rfl
        | some b =>
          dsimp only
          split
          · rfl
          · split
            · rfl
            · split
              · rfl
              · exact ih _ (by omega) _ _

theorem getDecisionD_erase (rule : List U8) (size : Nat) (m : Msg) :
    (getDecisionResultD rule size m).map Prod.fst = Vscp.DmNg.getDecisionResult rule size m := by
  unfold getDecisionResultD Vscp.DmNg.getDecisionResult
  split
  · rfl
  · exact decisionD_erase rule size m size 0 (by omega) false none

/-- The position of the error of a rule in the buffer, if there is one. -/
def ruleErr (rule : List U8) (m : Msg) : Option Nat :=
  match rule[0]?, rule[1]?, rule[2]? with
  | some ruleSize, some actionId, some _ =>
    if 6 ≤ ruleSize.toNat then
      if actionId ≠ 0 then
        match getDecisionResultD rule (ruleSize.toNat - 3) m with
        | some (_, p) => p
        | none => none
      else none
    else some 1
  | _, _, _ => none

theorem execRuleD_eq (rule : List U8) (m : Msg) (e : Err) (w : W) :
    execRuleD rule m e w = (e.incRule.note (ruleErr rule m), (Vscp.DmNg.execRule rule m w).2) := by
  unfold execRuleD Vscp.DmNg.execRule ruleErr
  cases rule[0]? with
  | none => rfl
  | some a =>
    cases rule[1]? with
    | none => rfl
    | some b =>
      cases rule[2]? with
      | none => rfl
      | some d =>
        dsimp only
        split
        · split
          · rw [← getDecisionD_erase]
            cases getDecisionResultD rule (a.toNat - 3) m with
            | none => rfl
            | some x =>
              obtain ⟨b, p⟩ := x
              cases b <;> rfl
          · rfl
        · rfl

theorem rulesD_same (c : Cfg) (m : Msg) (n : Nat) : ∀ (buf : List U8) (e : Err) (w : W),
    (rulesLoopD c m n buf e w).2 = (Vscp.DmNg.rulesLoop c m n buf w).2 := by
  induction n with
  | zero => intro buf e w; rfl
  | succ n ih =>
    intro buf e w
    unfold rulesLoopD Vscp.DmNg.rulesLoop
    rw [bind_run, bind_run, execRuleD_eq]
    dsimp only
    rw [bind_run, bind_run]
    generalize Vscp.DmNg.getNextRule c buf (Vscp.DmNg.execRule buf m w).2 = x
    obtain ⟨o, w'⟩ := x
    cases o with
    | none => rfl
    | some b => exact ih b _ w'

/-- **C93**: the error information does not change the behaviour: actions, memory and all other effects are those of the rules (C52, C53). -/
theorem C93_same (c : Ctx) (m : Msg) (e : Err) (w : W) : (executeActionsD c m e w).2 = (Vscp.DmNg.executeActions c m w).2 := by
  unfold executeActionsD Vscp.DmNg.executeActions
  rw [bind_run, bind_run]
  generalize Vscp.DmNg.getFirstRule c ((List.range Vscp.DmNg.RULE_MAX_SIZE).map c.garbage) w = x
  obtain ⟨o, w'⟩ := x
  cases o with
  | none => rfl
  | some b => exact rulesD_same c.toCfg m 256 b _ w'

/-! ### Verdict on a single rule -/

theorem decisionD_ok {rule : List U8} {size : Nat} {m : Msg} (hm : m.size.toNat ≤ 8) (ch : Chain) :
    ∀ (index : Nat) (result : Bool) (prev : Option U8), (∀ x ∈ ch.conds, x.Ok) → (prev = none ∨ prev = some 16 ∨ prev = some 32) →
      (∀ j, j < ch.bytes.length → rule[3 + (index + j)]? = ch.bytes[j]?) → index + ch.bytes.length ≤ size →
      ∃ b, decisionLoopD rule size m index result prev = some (b, none) := by
  have step : ∀ (x : Cond) (l : Nat), (l = 0 ∨ l = 16 ∨ l = 32) → x.Ok → ∀ (index : Nat) (result : Bool) (prev : Option U8),
      (prev = none ∨ prev = some 16 ∨ prev = some 32) →
      (∀ j, j < (x.bytes l).length → rule[3 + (index + j)]? = (x.bytes l)[j]?) → index + (x.bytes l).length ≤ size →
      ∃ b, decisionLoopD rule size m index result prev = some (b, none) ∨
        (BitVec.ofNat 8 l : U8) ≠ 0 ∧ decisionLoopD rule size m index result prev =
          decisionLoopD rule size m (index + (x.bytes l).length) b (some (BitVec.ofNat 8 l)) := by
    intro x l hl hx index result prev hp hr hs
    have hpc := parseCond_eq hm hx hl hr hs
    rw [← Vscp.DmNg.parseCondD_erase] at hpc
    cases h : parseCondD rule size m index with
    | none => rw [h] at hpc; cases hpc
    | some y =>
      cases y with
      | error i => rw [h] at hpc; cases hpc
      | ok y =>
        obtain ⟨cond, logicOp, next⟩ := y
        rw [h] at hpc
        have hpc : some (some (cond, logicOp, next)) = _ := hpc
        simp only [Option.some.injEq, Prod.mk.injEq] at hpc
        obtain ⟨-, rfl, rfl⟩ := hpc
        obtain ⟨b, hb⟩ : ∃ b, comb prev result cond = some b := by
          rcases hp with rfl | rfl | rfl
          · exact ⟨_, rfl⟩
          · exact ⟨result && cond, rfl⟩
          · exact ⟨result || cond, rfl⟩
        refine ⟨b, ?_⟩
        rw [loopD_some h, hb]
        dsimp only
        split
        · exact .inl rfl
        · split
          · exact .inl rfl
          · split
            · exact .inl rfl
            · rename_i h0
              exact .inr ⟨h0, rfl⟩
  have rest : ∀ (x : Cond) (l : Nat) (r : Chain) (index : Nat), (∀ j, j < (x.bytes l ++ r.bytes).length → rule[3 + (index + j)]? = (x.bytes l ++ r.bytes)[j]?) →
      (∀ j, j < (x.bytes l).length → rule[3 + (index + j)]? = (x.bytes l)[j]?) ∧
      (∀ j, j < r.bytes.length → rule[3 + (index + (x.bytes l).length + j)]? = r.bytes[j]?) := by
    intro x l r index hr
    rw [List.length_append] at hr
    refine ⟨fun j hj => ?_, fun j hj => ?_⟩
    · rw [hr j (by omega), List.getElem?_append_left hj]
    · have := hr ((x.bytes l).length + j) (by omega)
      rw [List.getElem?_append_right (by omega)] at this
      rw [show index + (x.bytes l).length + j = index + ((x.bytes l).length + j) by omega, this]
      congr 1
      omega
  induction ch with
  | last x =>
    intro index result prev hok hp hr hs
    obtain ⟨b, h | h⟩ := step x 0 (.inl rfl) (hok x (by simp [Chain.conds])) index result prev hp hr hs
    · exact ⟨b, h⟩
    · exact absurd rfl h.1
  | and x r ih =>
    intro index result prev hok hp hr hs
    obtain ⟨hr1, hr2⟩ := rest x 16 r index hr
    simp only [Chain.bytes, List.length_append] at hs
    obtain ⟨b, h | h⟩ := step x 16 (.inr (.inl rfl)) (hok x (by simp [Chain.conds])) index result prev hp hr1 (by omega)
    · exact ⟨b, h⟩
    · rw [h.2]
      exact ih _ b _ (fun y hy => hok y (by simp [Chain.conds, hy])) (.inr (.inl rfl)) hr2 (by omega)
  | or x r ih =>
    intro index result prev hok hp hr hs
    obtain ⟨hr1, hr2⟩ := rest x 32 r index hr
    simp only [Chain.bytes, List.length_append] at hs
    obtain ⟨b, h | h⟩ := step x 32 (.inr (.inr rfl)) (hok x (by simp [Chain.conds])) index result prev hp hr1 (by omega)
    · exact ⟨b, h⟩
    · rw [h.2]
      exact ih _ b _ (fun y hy => hok y (by simp [Chain.conds, hy])) (.inr (.inr rfl)) hr2 (by omega)

/-- A rule which can be written down is not reported. -/
theorem ruleErr_ok {m : Msg} (hm : m.size.toNat ≤ 8) {r : Rule} (hr : RuleOk r) (rest : List U8) : ruleErr (r.bytes ++ rest) m = none := by
  have hl := Rule.len r
  have h40 := hr.size
  have h3 := Chain.bytes_len r.chain
  have hn : (BitVec.ofNat 8 (3 + r.chain.bytes.length) : U8).toNat = 3 + r.chain.bytes.length := by
    rw [BitVec.toNat_ofNat]; omega
  have e0 : (r.bytes ++ rest)[0]? = some (BitVec.ofNat 8 (3 + r.chain.bytes.length)) := rfl
  have e1 : (r.bytes ++ rest)[1]? = some r.action := rfl
  have e2 : (r.bytes ++ rest)[2]? = some r.par := rfl
  obtain ⟨b, hb⟩ : ∃ b, getDecisionResultD (r.bytes ++ rest) r.chain.bytes.length m = some (b, none) := by
    unfold getDecisionResultD
    rw [if_neg (by omega)]
    refine decisionD_ok hm r.chain 0 false none hr.conds (.inl rfl) ?_ (by omega)
    intro j hj
    rw [List.getElem?_append_left (by omega)]
    show ([_, _, _] ++ r.chain.bytes)[3 + (0 + j)]? = _
    rw [List.getElem?_append_right (by simp)]
    congr 1
    simp
  unfold ruleErr
  rw [e0, e1, e2]
  dsimp only
  rw [hn, if_pos (by omega), show 3 + r.chain.bytes.length - 3 = r.chain.bytes.length by omega, hb]
  split <;> rfl

theorem ruleErr_encodes {B : Nat → U8} {buf : List U8} {p : Nat} {m : Msg} (hm : m.size.toNat ≤ 8) (h : Holds B buf p) (he : Encodes B p) :
    ruleErr buf m = none := by
  obtain ⟨r, hr, hj⟩ := he
  have hl := Rule.len r
  have h40 := hr.size
  have h3 := Chain.bytes_len r.chain
  have h0 := hj 0 (by omega)
  have e0 : r.bytes[0]? = some (BitVec.ofNat 8 (3 + r.chain.bytes.length)) := rfl
  rw [e0] at h0
  have hB : (B p).toNat = r.bytes.length := by
    have : B p = BitVec.ofNat 8 (3 + r.chain.bytes.length) := (Option.some.inj h0).symm
    rw [this, BitVec.toNat_ofNat]
    omega
  have hbuf : buf = r.bytes ++ buf.drop r.bytes.length := by
    rw [← List.take_append_drop r.bytes.length buf]
    congr 1
    · refine List.ext_getElem? fun i => ?_
      rw [List.getElem?_take]
      split
      · rename_i hi
        rw [h.get i (by omega), hj i hi]
      · rename_i hi
        rw [List.getElem?_eq_none (by omega)]
    · rw [List.take_append_drop]
  rw [hbuf]
  exact ruleErr_ok hm hr _

/-- An obviously wrong rule is reported, with this position. -/
theorem ruleErr_blatant {B : Nat → U8} {buf : List U8} {p : Nat} {m : Msg} (h : Holds B buf p) (hb : Blatant B p) :
    ruleErr buf m = some (if BadSize B p ∨ BadOp B p then 1 else 2) := by
  have hl := h.len
  have h0 : buf[0]? = some (B p) := h.get 0 h.pos
  unfold ruleErr
  by_cases h6 : 6 ≤ (B p).toNat
  · have hns : ¬ BadSize B p := by unfold BadSize; omega
    obtain ⟨ha, hc⟩ := hb.resolve_left hns
    rw [h0, h.get 1 (by omega), h.get 2 (by omega)]
    dsimp only
    rw [if_pos h6, if_pos ha]
    have hd : ∃ x, getDecisionResultD buf ((B p).toNat - 3) m = some (false, some x) ∧ x = if BadSize B p ∨ BadOp B p then 1 else 2 := by
      unfold getDecisionResultD
      rw [if_neg (by omega), decisionLoopD]
      have hp : parseCondD buf ((B p).toNat - 3) m 0 = some (.error (if BadSize B p ∨ BadOp B p then 1 else 2)) := by
        unfold parseCondD
        rw [if_neg (by omega), show 3 + 0 = 3 from rfl, h.get 3 (by omega), show 3 + (0 + 1) = 4 from rfl, h.get 4 (by omega)]
        dsimp only
        have hop : ∀ x : U8, (7 ≤ (x &&& 0x0F).toNat ∨ (x &&& 0xF0 ≠ 0x00 ∧ x &&& 0xF0 ≠ 0x10 ∧ x &&& 0xF0 ≠ 0x20)) ↔
            (7 ≤ x.toNat % 16 ∨ 3 ≤ x.toNat / 16) := by
          decide +kernel
        by_cases hbo : BadOp B p
        · rw [if_pos (c := BadSize B p ∨ BadOp B p) (.inr hbo)]
          rcases (hop _).mpr hbo with h7 | h7
          · rw [if_pos h7]
          · rw [if_pos h7]
            split <;> rfl
        · rw [if_neg (c := BadSize B p ∨ BadOp B p) (fun e => e.elim hns hbo)]
          have h7 := fun e => hbo ((hop _).mp e)
          rw [if_neg (fun e => h7 (.inl e)), if_neg (fun e => h7 (.inr e)), if_pos (show 17 ≤ (B (p + 4)).toNat from hc.resolve_left hbo)]
      split
      · rename_i hx; rw [hp] at hx; cases hx
      · rename_i i hx
        rw [hp] at hx
        cases hx
        exact ⟨_, rfl, rfl⟩
      · rename_i hx; rw [hp] at hx; cases hx
    obtain ⟨x, hx, rfl⟩ := hd
    rw [hx]
  · have hs : BadSize B p := by unfold BadSize; omega
    rw [h0, List.getElem?_eq_getElem (show 1 < buf.length by omega), List.getElem?_eq_getElem (show 2 < buf.length by omega)]
    dsimp only
    rw [if_neg h6, if_pos (.inl hs)]

/-! ### The report -/

/-- The report of a list of verdicts. -/
def report (e : Err) (l : List (Option Nat)) : Err := l.foldl (fun e x => e.incRule.note x) e

theorem report_flag (l : List (Option Nat)) : ∀ e : Err, e.flag = true → report e l = e := by
  induction l with
  | nil => intro e _; rfl
  | cons x l ih =>
    intro e h
    show report (e.incRule.note x) l = e
    have : e.incRule.note x = e := by
      have h1 : e.incRule = e := by unfold Err.incRule; rw [h]; rfl
      rw [h1]
      cases x with
      | none => rfl
      | some p =>
        show (e.incPos p).set = e
        unfold Err.incPos Err.set
        rw [h]
        obtain ⟨f, r, p⟩ := e
        cases h
        rfl
    rw [this]
    exact ih e h

theorem report_none (l : List (Option Nat)) : ∀ e : Err, e.flag = false → (∀ x ∈ l, x = none) →
    report e l = { e with rule := e.rule + BitVec.ofNat 8 l.length } := by
  induction l with
  | nil => intro e _ _; show e = _; rw [List.length_nil, show (BitVec.ofNat 8 0 : U8) = 0#8 from rfl, BitVec.add_zero]
  | cons x l ih =>
    intro e h hx
    have h0 := hx x List.mem_cons_self
    subst h0
    show report e.incRule l = _
    have h1 : e.incRule = { e with rule := e.rule + 1 } := by unfold Err.incRule; rw [h]; rfl
    rw [h1, ih ⟨e.flag, e.rule + 1, e.pos⟩ h (fun y hy => hx y (List.mem_cons_of_mem _ hy))]
    dsimp only
    congr 1
    rw [List.length_cons, BitVec.ofNat_add, BitVec.add_assoc, BitVec.add_comm (1 : U8)]
    rfl

theorem report_first (a : List (Option Nat)) (p : Nat) (b : List (Option Nat)) (ha : ∀ x ∈ a, x = none) :
    report .clear (a ++ some p :: b) = ⟨true, BitVec.ofNat 8 (a.length + 1), BitVec.ofNat 8 p⟩ := by
  unfold report
  rw [List.foldl_append]
  have h1 := report_none a .clear rfl ha
  unfold report at h1
  rw [h1, List.foldl_cons]
  refine (report_flag b _ rfl).trans ?_
  unfold Err.note Err.incRule Err.incPos Err.set Err.clear
  simp only [if_true]
  rw [show (0 : U8) = 0#8 from rfl, BitVec.zero_add, BitVec.zero_add, BitVec.ofNat_add]
  rfl

/-- The verdict on the rule at `q`. -/
structure Verdict (B : Nat → U8) (q : Nat) (x : Option Nat) : Prop where
  good : Encodes B q → x = none
  bad : Blatant B q → x = some (if BadSize B q ∨ BadOp B q then 1 else 2)

theorem rulesD_any (c : Ctx) {m : Msg} (hm : m.size.toNat ≤ 8) (n : Nat) :
    ∀ (buf : List U8) (p : Nat) (w : W) (e : Err), Holds (byte c w.ps) buf p → w.dm.ngCnt.toNat < n →
      w.dm.ngIdx.toNat + 40 * w.dm.ngCnt.toNat < 65536 →
      ∃ l : List (Nat × Option Nat), (rulesLoopD c m n buf e w).1 = report e (l.map Prod.snd) ∧
        l.map Prod.fst = p :: positions (byte c w.ps) w.dm.ngCnt.toNat p w.dm.ngIdx.toNat ∧
        ∀ x ∈ l, Verdict (byte c w.ps) x.1 x.2 := by
  induction n with
  | zero => intro _ _ _ _ _ h; omega
  | succ n ih =>
    intro buf p w e hb hn hov
    obtain ⟨l0, h0, -⟩ := execRule_any hm hb w
    have hv : Verdict (byte c w.ps) p (ruleErr buf m) := ⟨ruleErr_encodes hm hb, ruleErr_blatant hb⟩
    unfold rulesLoopD
    rw [bind_run, execRuleD_eq, h0]
    dsimp only
    by_cases hs : w.dm.ngCnt = 0 ∨ 40 < (byte c w.ps w.dm.ngIdx.toNat).toNat
    · rw [bind_run, getNext_none c _ (by exact hs)]
      refine ⟨[(p, ruleErr buf m)], rfl, ?_, fun x hx => ?_⟩
      · show [p] = _
        have : positions (byte c w.ps) w.dm.ngCnt.toNat p w.dm.ngIdx.toNat = [] := by
          rcases hs with h | h
          · rw [h]; rfl
          · cases w.dm.ngCnt.toNat with
            | zero => rfl
            | succ k => unfold positions; rw [if_pos h]
        rw [this]
      · rw [List.mem_singleton] at hx
        rw [hx]
        exact hv
    · have hc : w.dm.ngCnt ≠ 0 := fun e => hs (.inl e)
      have h40 : (byte c w.ps w.dm.ngIdx.toNat).toNat ≤ 40 := by
        by_cases h : (byte c w.ps w.dm.ngIdx.toNat).toNat ≤ 40
        · exact h
        · exact absurd (.inr (by omega)) hs
      obtain ⟨buf', h1, h2⟩ := getNext_any c (buf := buf) (p := p) { w with out := w.out ++ l0 } hc hb.len h40 (fun _ => hb)
      rw [bind_run, h1]
      simp only at h2 ⊢
      have hcn := cnt_pred hc
      have hix : (w.dm.ngIdx + (byte c w.ps w.dm.ngIdx.toNat).setWidth 16).toNat = w.dm.ngIdx.toNat + (byte c w.ps w.dm.ngIdx.toNat).toNat := by
        rw [BitVec.toNat_add, BitVec.toNat_setWidth]; omega
      obtain ⟨l, h3, h4, h5⟩ := ih buf' _ { w with
          out := w.out ++ l0,
          dm := { w.dm with ngIdx := w.dm.ngIdx + (byte c w.ps w.dm.ngIdx.toNat).setWidth 16, ngCnt := w.dm.ngCnt - 1 } }
        (e.incRule.note (ruleErr buf m)) h2 (by simp only; omega) (by simp only [hix]; omega)
      simp only [hix] at h4 h5
      refine ⟨(p, ruleErr buf m) :: l, h3, ?_, fun x hx => ?_⟩
      · rw [List.map_cons, h4, ← hcn]
        conv => rhs; unfold positions
        rw [if_neg (c := 40 < (byte c w.ps w.dm.ngIdx.toNat).toNat) (by omega)]
      · rcases List.mem_cons.mp hx with rfl | hx
        · exact hv
        · exact h5 x hx

/-- The verdicts on all rules which are examined. -/
theorem executeActionsD_any (c : Ctx) {m : Msg} (hm : m.size.toNat ≤ 8) (w : W) (e : Err)
    (h0 : byte c w.ps 0 ≠ 0) (hz : byte c w.ps 1 ≠ 0) (h40 : (byte c w.ps 1).toNat ≤ 40) :
    ∃ l : List (Nat × Option Nat), (executeActionsD c m e w).1 = report .clear (l.map Prod.snd) ∧
      l.map Prod.fst = positions (byte c w.ps) (byte c w.ps 0).toNat 0 1 ∧ ∀ x ∈ l, Verdict (byte c w.ps) x.1 x.2 := by
  unfold executeActionsD Vscp.DmNg.getFirstRule
  rw [bind_run, bind_run, readByte]
  simp only
  rw [bind_run, modify_run]
  simp only
  obtain ⟨buf', h1, h2⟩ := getNext_any c (buf := (List.range Vscp.DmNg.RULE_MAX_SIZE).map c.garbage) (p := 0)
    { w with dm := { w.dm with ngIdx := 1, ngCnt := byte c w.ps 0 } } h0 (by simp [Vscp.DmNg.RULE_MAX_SIZE]) h40 (fun e => absurd e hz)
  rw [h1]
  simp only at h2 ⊢
  rw [show (1 : U16).toNat = 1 from rfl] at h2 ⊢
  rw [if_neg hz] at h2
  have hcn := cnt_pred h0
  have := (byte c w.ps 0).isLt
  have hix : (1 + (byte c w.ps 1).setWidth 16 : U16).toNat = 1 + (byte c w.ps 1).toNat := by
    rw [BitVec.toNat_add, BitVec.toNat_setWidth, show (1 : U16).toNat = 1 from rfl]; omega
  obtain ⟨l, h3, h4, h5⟩ := rulesD_any c hm 256 buf' 1 { w with
      dm := { w.dm with ngIdx := 1 + (byte c w.ps 1).setWidth 16, ngCnt := byte c w.ps 0 - 1 } } .clear
    h2 (by simp only; omega) (by simp only [hix]; omega)
  simp only [hix] at h4 h5
  refine ⟨l, h3, ?_, h5⟩
  rw [h4, ← hcn]
  conv => rhs; unfold positions
  rw [if_neg (c := 40 < (byte c w.ps 1).toNat) (by omega)]
  simp only
  rw [if_neg hz]

/-- A list of verdicts has a first error or none. -/
theorem first_or_none (l : List (Nat × Option Nat)) :
    (∀ x ∈ l, x.2 = none) ∨ ∃ a q p b, l = a ++ (q, some p) :: b ∧ ∀ x ∈ a, x.2 = none := by
  induction l with
  | nil => exact .inl (fun x hx => absurd hx List.not_mem_nil)
  | cons y l ih =>
    obtain ⟨q, o⟩ := y
    cases o with
    | some p => exact .inr ⟨[], q, p, l, rfl, fun x hx => absurd hx List.not_mem_nil⟩
    | none =>
      rcases ih with h | ⟨a, q', p, b, rfl, h⟩
      · refine .inl fun x hx => ?_
        rcases List.mem_cons.mp hx with rfl | hx
        · rfl
        · exact h x hx
      · refine .inr ⟨(q, none) :: a, q', p, b, rfl, fun x hx => ?_⟩
        rcases List.mem_cons.mp hx with rfl | hx
        · rfl
        · exact h x hx

/-- **C93**, partial: behind the evaluation of a rule set with any content, for any event.  If an error is reported, the rule with the reported number is not a
rule which can be written down, and no rule in front of it is obviously wrong; if no error is reported, no rule is obviously wrong.  For an obviously
wrong rule the position is the number of bytes behind which the error was found: of the rule (size) or of its conditions.  Missing: rules which are wrong
further behind, where the result is already known; rules which are too large; the position counted from the start of the rule; an
empty rule set. -/
theorem C93_report_partial (c : Ctx) {m : Msg} (hm : m.size.toNat ≤ 8) (w : W) (e : Err)
    (h0 : byte c w.ps 0 ≠ 0) (hz : byte c w.ps 1 ≠ 0) (h40 : (byte c w.ps 1).toNat ≤ 40) :
    let B := byte c w.ps
    let L := positions B (B 0).toNat 0 1
    let r := (executeActionsD c m e w).1
    (r.flag = true → ∃ a q b, L = a ++ q :: b ∧ r.rule.toNat = a.length + 1 ∧ ¬ Encodes B q ∧ (∀ x ∈ a, ¬ Blatant B x) ∧
      (Blatant B q → r.pos = if BadSize B q ∨ BadOp B q then 1 else 2)) ∧
    (r.flag = false → r.rule.toNat = L.length ∧ r.pos = 0 ∧ ∀ q ∈ L, ¬ Blatant B q) := by
  intro B L r
  obtain ⟨l, h1, h2, h3⟩ := executeActionsD_any c hm w e h0 hz h40
  have hlen : l.length = L.length := by rw [← List.length_map (f := Prod.fst), h2]
  have hcnt : L.length < 256 := Nat.lt_of_le_of_lt (positions_len _ _ _ _) (B 0).isLt
  rcases first_or_none l with hn | ⟨a, q, p, b, rfl, ha⟩
  · have hr : r = ⟨false, BitVec.ofNat 8 L.length, 0⟩ := by
      show (executeActionsD c m e w).1 = _
      rw [h1, report_none _ _ rfl (fun x hx => by
        obtain ⟨y, hy, rfl⟩ := List.mem_map.mp hx
        exact hn y hy), List.length_map, hlen]
      unfold Err.clear
      rw [show (0 : U8) = 0#8 from rfl, BitVec.zero_add]
    rw [hr]
    refine ⟨fun h => (by cases h), fun _ => ⟨?_, rfl, fun q hq hb => ?_⟩⟩
    · show (BitVec.ofNat 8 L.length).toNat = _
      rw [BitVec.toNat_ofNat]
      omega
    · have hq' : q ∈ l.map Prod.fst := by rw [h2]; exact hq
      obtain ⟨x, hx, rfl⟩ := List.mem_map.mp hq'
      have := (h3 x hx).bad hb
      rw [hn x hx] at this
      cases this
  · have hr : r = ⟨true, BitVec.ofNat 8 (a.length + 1), BitVec.ofNat 8 p⟩ := by
      show (executeActionsD c m e w).1 = _
      rw [h1, List.map_append, List.map_cons, report_first _ _ _ (fun x hx => by
        obtain ⟨y, hy, rfl⟩ := List.mem_map.mp hx
        exact ha y hy), List.length_map]
    rw [hr]
    rw [List.length_append, List.length_cons] at hlen
    refine ⟨fun _ => ⟨a.map Prod.fst, q, b.map Prod.fst, ?_, ?_, ?_, ?_, ?_⟩, fun h => (by cases h)⟩
    · rw [List.map_append, List.map_cons] at h2
      exact h2.symm
    · show (BitVec.ofNat 8 (a.length + 1)).toNat = _
      rw [BitVec.toNat_ofNat, List.length_map]
      omega
    · intro he
      have := (h3 (q, some p) (by simp)).good he
      cases this
    · intro x hx hb
      obtain ⟨y, hy, rfl⟩ := List.mem_map.mp hx
      have := (h3 y (by simp [hy])).bad hb
      rw [ha y hy] at this
      cases this
    · intro hb
      have := (h3 (q, some p) (by simp)).bad hb
      show BitVec.ofNat 8 p = _
      have hp : p = if BadSize B q ∨ BadOp B q then 1 else 2 := by
        have := Option.some.inj this
        rw [this]
      rw [hp]
      split <;> rfl

theorem incRule_eq (e : Err) (h : e.flag = false) : e.incRule = { e with rule := e.rule + 1 } := by
  unfold Err.incRule
  rw [if_pos h]

theorem rulesLoopD_good (c : Ctx) {m : Msg} (hm : m.size.toNat ≤ 8) (rs : List Rule) :
    ∀ (n : Nat) (r : Rule) (rest : List U8) (w : W) (e : Err), RuleOk r → (∀ r ∈ rs, RuleOk r) → rs.length < n → rs.length < 256 →
      w.dm.ngCnt = BitVec.ofNat 8 rs.length → Stored c w.ps w.dm.ngIdx.toNat (rs.flatMap Rule.bytes) →
      w.dm.ngIdx.toNat + 40 * rs.length < 65536 → e.flag = false →
      (rulesLoopD c m n (r.bytes ++ rest) e w).1 = { e with rule := e.rule + BitVec.ofNat 8 (rs.length + 1) } := by
  induction rs with
  | nil =>
    intro n r rest w e hr _ hn _ hc _ _ hf
    obtain ⟨n, rfl⟩ : ∃ k, n = k + 1 := ⟨n - 1, by simp at hn; omega⟩
    unfold rulesLoopD
    rw [bind_run, execRuleD_eq, ruleErr_ok hm hr, execRule_eq hm hr]
    simp only
    rw [bind_run, Foot.ngGetNextRule_run, if_pos (by exact hc)]
    exact incRule_eq e hf
  | cons q rs ih =>
    intro n r rest w e hr hrs hn h256 hc hst hov hf
    simp only [List.length_cons] at hn h256 hc hov
    obtain ⟨n, rfl⟩ : ∃ k, n = k + 1 := ⟨n - 1, by omega⟩
    have hq := hrs q (by simp)
    have hql := hq.size
    rw [List.flatMap_cons] at hst
    unfold rulesLoopD
    rw [bind_run, execRuleD_eq, ruleErr_ok hm hr, execRule_eq hm hr]
    simp only
    rw [bind_run, next_eq c (r := q) _ _ hq.size ?_ (by exact hst.left)]
    · simp only
      have hix : (w.dm.ngIdx + BitVec.ofNat 16 q.bytes.length).toNat = w.dm.ngIdx.toNat + q.bytes.length := by
        rw [BitVec.toNat_add, BitVec.toNat_ofNat]; omega
      have h1 : w.dm.ngCnt - 1 = BitVec.ofNat 8 rs.length := by
        rw [hc]
        apply BitVec.eq_of_toNat_eq
        rw [BitVec.toNat_sub, BitVec.toNat_ofNat, BitVec.toNat_ofNat, show (1 : U8).toNat = 1 from rfl]
        omega
      rw [ih n q _ { w with
          out := w.out ++ calls (fun ch => ch.HoldsRight m m.data.toList) [r] m,
          dm := { w.dm with ngIdx := w.dm.ngIdx + BitVec.ofNat 16 q.bytes.length, ngCnt := w.dm.ngCnt - 1 } }
        (e.incRule.note none) hq (fun x hx => hrs x (by simp [hx])) (by omega) (by omega) h1 (by simp only [hix]; exact hst.right) (by simp only [hix]; omega)
        (by show e.incRule.flag = false; rw [incRule_eq e hf]; exact hf)]
      show ({ e.incRule with rule := e.incRule.rule + _ } : Err) = _
      rw [incRule_eq e hf]
      dsimp only
      congr 1
      rw [List.length_cons, BitVec.ofNat_add (rs.length + 1), BitVec.add_assoc, BitVec.add_comm (1 : U8)]
      rfl
    · simp only [hc]
      intro e
      have := congrArg BitVec.toNat e
      rw [BitVec.toNat_ofNat] at this
      simp at this
      omega

/-- **C93**: a rule set of rules which can be written down: no error is reported, for any event and whatever was reported for the last one; the rule number is the
number of rules. -/
theorem C93_good (c : Ctx) {m : Msg} (hm : m.size.toNat ≤ 8) (rs : List Rule) (hrs : ∀ r ∈ rs, RuleOk r) (hl : rs.length < 256) (hne : rs ≠ [])
    (w : W) (e : Err) (hst : Stored c w.ps 0 (ruleSet rs)) :
    (executeActionsD c m e w).1 = ⟨false, BitVec.ofNat 8 rs.length, 0⟩ := by
  unfold executeActionsD Vscp.DmNg.getFirstRule
  have h0 := hst 0 (by simp [ruleSet])
  have hcnt : Ps.readDmNg c 0 w = (BitVec.ofNat 8 rs.length, w) := by
    rw [Foot.ngRead_run, if_pos (by omega)]
    have : (ruleSet rs)[0]? = some (BitVec.ofNat 8 rs.length) := rfl
    rw [this] at h0
    exact congrArg (·, w) (Option.some.inj h0.2).symm
  rw [bind_run, bind_run, hcnt]
  simp only
  rw [bind_run, modify_run]
  simp only
  have hr : Stored c w.ps 1 (rs.flatMap Rule.bytes) := Stored.right (l := [BitVec.ofNat 8 rs.length]) hst
  cases rs with
  | nil => exact absurd rfl hne
  | cons q rs =>
    simp only [List.length_cons] at hl
    rw [List.flatMap_cons] at hr
    have hq := hrs q (by simp)
    have hql := hq.size
    rw [next_eq c (r := q) _ _ hq.size ?_ (by exact hr.left)]
    · simp only
      have hix : ((1 : U16) + BitVec.ofNat 16 q.bytes.length).toNat = 1 + q.bytes.length := by
        rw [BitVec.toNat_add, BitVec.toNat_ofNat, show (1 : U16).toNat = 1 from rfl]; omega
      rw [rulesLoopD_good c hm rs 256 q _ _ .clear hq (fun x hx => hrs x (by simp [hx])) (by omega) (by omega) ?_ ?_ ?_ rfl]
      · unfold Err.clear
        rw [show (0 : U8) = 0#8 from rfl, BitVec.zero_add, List.length_cons]
      · apply BitVec.eq_of_toNat_eq
        simp only [List.length_cons]
        rw [BitVec.toNat_sub, BitVec.toNat_ofNat, BitVec.toNat_ofNat]
        simp; omega
      · simp only [hix]; exact hr.right
      · simp only [hix]; omega
    · intro e
      have := congrArg BitVec.toNat e
      simp only [List.length_cons] at this
      rw [BitVec.toNat_ofNat] at this
      simp at this
      omega

/-! ### Where the report is wrong -/

/-- **C93** does not hold: for an empty rule set the report of the last event stays, whatever it was. -/
theorem C93_empty_violated (c : Ctx) (m : Msg) (w : W) (e : Err) (h0 : byte c w.ps 0 = 0) : (executeActionsD c m e w).1 = e := by
  unfold executeActionsD Vscp.DmNg.getFirstRule
  rw [bind_run, bind_run, readByte]
  simp only
  rw [bind_run, modify_run]
  simp only
  rw [getNext_none c _ (.inl h0)]
  rfl

/-- **C93** does not hold: likewise if the first rule is too large to be evaluated. -/
theorem C93_large_violated (c : Ctx) (m : Msg) (w : W) (e : Err) (h40 : 40 < (byte c w.ps 1).toNat) : (executeActionsD c m e w).1 = e := by
  unfold executeActionsD Vscp.DmNg.getFirstRule
  rw [bind_run, bind_run, readByte]
  simp only
  rw [bind_run, modify_run]
  simp only
  rw [getNext_none c _ (.inr h40)]
  rfl

/-- The report for an event of a node whose rule set has these bytes. -/
def reportOf (l : List U8) (m : Msg) : Err := (executeActionsD Ex.ctx m .clear (node Ex.ctx allOk (ngMem l) [.process none])).1

/-- **C93** does not hold: behind a good rule there is one which is too large; no error is reported. -/
theorem C93_next_large_violated : reportOf [2, 6, 9, 0, 1, 3, 0, 41, 9, 0, 0xFF] (Ex.msg 10 6 9 [1, 2]) = ⟨false, 1, 0⟩ := by
  decide +kernel

/-- **C93** does not hold: the second condition of the rule has an operator which does not exist.  Whether this is reported depends on the event. -/
theorem C93_hidden_violated : let l : List U8 := [1, 9, 5, 1, 0x11, 2, 9, 0xFF, 2, 6]
    reportOf l (Ex.msg 10 6 9 [1, 2]) = ⟨false, 1, 0⟩ ∧ reportOf l (Ex.msg 10 9 9 [1, 2]) = ⟨true, 1, 4⟩ := by
  decide +kernel

/-- **C93** does not hold: the position in the rule of a wrong operator is 3 (behind size, action and parameter), reported is 1. -/
theorem C93_position_violated : reportOf [1, 6, 5, 1, 0x07, 2, 9] (Ex.msg 10 6 9 [1, 2]) = ⟨true, 1, 1⟩ ∧
    ([6, 5, 1, 0x07, 2, 9] : List U8)[3]? = some 0x07 := by
  decide +kernel

-- The hypotheses of `C93_report_partial`: a good rule, and one whose parameter does not exist.
example : let w := node Ex.ctx allOk (ngMem [2, 6, 9, 0, 1, 3, 0, 6, 5, 1, 0x01, 17, 9]) [.process none]
    byte Ex.ctx w.ps 0 ≠ 0 ∧ byte Ex.ctx w.ps 1 ≠ 0 ∧ (byte Ex.ctx w.ps 1).toNat ≤ 40 ∧
    (executeActionsD Ex.ctx (Ex.msg 10 6 9 [1, 2]) .clear w).1 = ⟨true, 2, 2⟩ := by
  decide +kernel

-- The hypothesis of `C93_good` is that of `C52_right_partial`; the report for these rules:
example : reportOf (ruleSet three) (Ex.msg 10 6 9 [1, 2, 3]) = ⟨false, 3, 0⟩ := by decide +kernel

-- The hypotheses of `C93_empty_violated` and `C93_large_violated`.
example : byte Ex.ctx (ngMem [0]) 0 = 0 ∧ 40 < (byte Ex.ctx (ngMem [1, 41]) 1).toNat := by decide +kernel

end Vscp.NgProps
