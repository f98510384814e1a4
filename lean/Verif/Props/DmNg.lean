/-
Decision matrix next generation: C52, C53.
-/
import Verif.Lemmas.DmNg
import Verif.Props.Dm

namespace Vscp.NgProps
open M Vscp.Spec Vscp.Spec.DmNg Vscp.DmProps Vscp.Safety Transport
open Vscp.Spec.Dm (actions)

/-! ### The cycle -/

/-- What a received event of an active node leads to: the handling of the event (`t0`), the rows of the decision matrix (if configured), the
next generation rules with the memory as it is now, and the rest of the cycle without any action. -/
theorem ng_cycle (c : Ctx) (rx : Option Msg) (m : Msg) (w : W) (hng : c.dmNg = true) (hn : c.dm = true → c.dmRows ≤ 255)
    (ha : w.v.st = .active) (hr : (readMessage c rx w).1 = some m) (hm : m.size.toNat ≤ 8) :
    ∃ t0 ng t1 w', (stepOp c (.process rx) w).2.out =
        w.out ++ (t0 ++ ((if c.dm then Dm.calls (matrix c (memAfter w.ps t0)) m m.data.toList else []) ++ ng) ++ t1) ∧
      actions t0 = [] ∧ actions t1 = [] ∧ (m.cls ≠ 0 → t0 = [.event m]) ∧
      w'.ps = memAfter w.ps t0 ∧ (Vscp.DmNg.executeActions c m w').2.out = w'.out ++ ng := by
  obtain ⟨t0, w2, t1, ho, hps0, ha0, he0, ha1, hout⟩ := action_cycle c rx m w ha hr hm
  have hra : ∃ w', (runActions c m w2).2 = (Vscp.DmNg.executeActions c m w').2 ∧ w'.ps = w2.ps ∧
      w'.out = w2.out ++ (if c.dm then Dm.calls (matrix c w2.ps) m m.data.toList else []) := by
    unfold runActions
    by_cases hdm : c.dm = true
    · refine ⟨{ w2 with out := w2.out ++ Dm.calls (matrix c w2.ps) m m.data.toList }, ?_, rfl, by rw [if_pos hdm]⟩
      have : whenM (c.dm = true) (Vscp.Dm.executeActions c.toCfg m) w2 =
          ((), { w2 with out := w2.out ++ Dm.calls (matrix c w2.ps) m m.data.toList }) := by
        rw [whenM_run, if_pos hdm, executeActions_run c.toCfg m w2 hdm (hn hdm)]
      rw [bind_run, this]
      simp only
      rw [whenM_run, if_pos hng]
    · refine ⟨w2, ?_, rfl, by rw [if_neg hdm, List.append_nil]⟩
      have : whenM (c.dm = true) (Vscp.Dm.executeActions c.toCfg m) w2 = ((), w2) := by
        rw [whenM_run, if_neg hdm]
      rw [bind_run, this]
      simp only
      rw [whenM_run, if_pos hng]
  obtain ⟨w', h1, h2, h3⟩ := hra
  obtain ⟨ng, h4, -⟩ := ((Foot.ngExecuteActions (c := c) (bad := True) (m := m) (fun _ => trivial) (fun _ => trivial)) w').outs
  refine ⟨t0, ng, t1, w', ?_, ha0, ha1, he0, h2.trans hps0, h4⟩
  rw [hout, h1, h4, h3, ho, hps0]
  simp only [List.append_assoc]

/-! ### C52: evaluation of rules -/

theorem and_left {m : Msg} {data : List U8} {A : Prop} {ch : Chain} (h : ch.AllAnd) :
    ch.HoldsLeft m data (fun p => A ∧ p) ↔ A ∧ ch.HoldsRight m data := by
  induction ch generalizing A with
  | last x => exact Iff.rfl
  | and x r ih => rw [Chain.HoldsLeft, ih h, Chain.HoldsRight, and_assoc]
  | or x r => exact h.elim

theorem or_left {m : Msg} {data : List U8} {A : Prop} {ch : Chain} (h : ch.AllOr) :
    ch.HoldsLeft m data (fun p => A ∨ p) ↔ A ∨ ch.HoldsRight m data := by
  induction ch generalizing A with
  | last x => exact Iff.rfl
  | and x r => exact h.elim
  | or x r ih => rw [Chain.HoldsLeft, ih h, Chain.HoldsRight, or_assoc]

/-- Without a mixture of AND and OR the order does not matter. -/
theorem plain_left {m : Msg} {data : List U8} {ch : Chain} (h : ch.Plain) : ch.HoldsLeft m data id ↔ ch.HoldsRight m data := by
  cases ch with
  | last x => exact Iff.rfl
  | and x r => exact and_left (h.elim (fun h => h) (fun h => h.elim))
  | or x r => exact or_left (h.elim (fun h => h.elim) (fun h => h))

theorem zone_payload {m : Msg} (hm : m.size.toNat ≤ 8) (h : Complete m) {k : Nat} (hk : k ≤ 1) :
    zoneValue m m.data.toList k = zoneValue m (payload m) k := by
  have key : ∀ i, i < m.size.toNat → (payload m)[i]? = m.data.toList[i]? := by
    intro i hi
    unfold payload
    rw [List.getElem?_take, if_pos hi]
  unfold zoneValue
  split
  · rename_i h0
    rw [key k (by have := h.byte0 h0; omega)]
  · split
    · rename_i h1
      rw [key (k + 1) (by have := h.byte1 h1; omega)]
    · rfl

theorem cond_payload {m : Msg} (hm : m.size.toNat ≤ 8) (h : Complete m) (x : Cond) : x.Holds m m.data.toList ↔ x.Holds m (payload m) := by
  unfold Cond.Holds
  have : x.par.value m m.data.toList = x.par.value m (payload m) := by
    unfold Par.value
    cases x.par <;> try rfl
    · exact zone_payload hm h (by omega)
    · exact zone_payload hm h (by omega)
  rw [this]

theorem right_payload {m : Msg} (hm : m.size.toNat ≤ 8) (h : Complete m) (ch : Chain) : ch.HoldsRight m m.data.toList ↔ ch.HoldsRight m (payload m) := by
  induction ch with
  | last x => exact cond_payload hm h x
  | and x r ih => rw [Chain.HoldsRight, Chain.HoldsRight, ih, cond_payload hm h]
  | or x r ih => rw [Chain.HoldsRight, Chain.HoldsRight, ih, cond_payload hm h]

theorem calls_congr {f g : Chain → Prop} {rs : List Rule} (m : Msg) (h : ∀ r ∈ rs, (f r.chain ↔ g r.chain)) : DmNg.calls f rs m = DmNg.calls g rs m := by
  induction rs with
  | nil => rfl
  | cons r rs ih =>
    rw [calls_cons f, calls_cons g, ih (fun x hx => h x (by simp [hx]))]
    congr 1
    unfold DmNg.calls
    simp only [List.filterMap_cons, List.filterMap_nil]
    have := h r (by simp)
    by_cases e : r.action ≠ 0 ∧ f r.chain
    · rw [if_pos e, if_pos ⟨e.1, this.mp e.2⟩]
    · rw [if_neg e, if_neg (fun e' => e ⟨e'.1, this.mpr e'.2⟩)]

/-- C52: for every event an active node receives, the rules of any rule set in the memory are executed in order, and exactly those fire which have
an action and whose conditions hold.  The conditions are combined from right to left, and the zones may be taken from behind the payload: see the `_violated`
theorems for the difference to what is claimed. -/
theorem C52_right_partial (c : Ctx) (rx : Option Msg) (m : Msg) (w : W) (hng : c.dmNg = true) (hn : c.dm = true → c.dmRows ≤ 255)
    (ha : w.v.st = .active) (hr : (readMessage c rx w).1 = some m) (hm : m.size.toNat ≤ 8) :
    ∃ t0 ng t1, (stepOp c (.process rx) w).2.out =
        w.out ++ (t0 ++ ((if c.dm then Dm.calls (matrix c (memAfter w.ps t0)) m m.data.toList else []) ++ ng) ++ t1) ∧
      actions t0 = [] ∧ actions t1 = [] ∧ (m.cls ≠ 0 → t0 = [.event m]) ∧
      ∀ rs : List Rule, (∀ r ∈ rs, RuleOk r) → rs.length < 256 → Stored c (memAfter w.ps t0) 0 (ruleSet rs) →
        ng = DmNg.calls (fun ch => ch.HoldsRight m m.data.toList) rs m := by
  obtain ⟨t0, ng, t1, w', h1, h2, h3, h4, h5, h6⟩ := ng_cycle c rx m w hng hn ha hr hm
  refine ⟨t0, ng, t1, h1, h2, h3, h4, fun rs hrs hl hst => ?_⟩
  obtain ⟨d, hd⟩ := executeActions_eq c hm rs hrs hl w' (by rw [h5]; exact hst)
  rw [hd] at h6
  exact (List.append_cancel_left h6).symm

/-- C52, for rules which do not mix AND and OR, and events which carry the zones their class demands: the rules fire whose conditions hold,
combined from left to right, judged by the payload of the event only.  Missing: rules with a mixture of AND and OR and events without
zone, where the property is violated. -/
theorem C52_rules_partial (c : Ctx) (rx : Option Msg) (m : Msg) (w : W) (hng : c.dmNg = true) (hn : c.dm = true → c.dmRows ≤ 255)
    (ha : w.v.st = .active) (hr : (readMessage c rx w).1 = some m) (hm : m.size.toNat ≤ 8) (hc : Complete m) :
    ∃ t0 ng t1, (stepOp c (.process rx) w).2.out =
        w.out ++ (t0 ++ ((if c.dm then Dm.calls (matrix c (memAfter w.ps t0)) m m.data.toList else []) ++ ng) ++ t1) ∧
      actions t0 = [] ∧ actions t1 = [] ∧ (m.cls ≠ 0 → t0 = [.event m]) ∧
      ∀ rs : List Rule, (∀ r ∈ rs, RuleOk r ∧ r.chain.Plain) → rs.length < 256 → Stored c (memAfter w.ps t0) 0 (ruleSet rs) →
        ng = DmNg.calls (fun ch => ch.HoldsLeft m (payload m) id) rs m := by
  obtain ⟨t0, ng, t1, h1, h2, h3, h4, h5⟩ := C52_right_partial c rx m w hng hn ha hr hm
  refine ⟨t0, ng, t1, h1, h2, h3, h4, fun rs hrs hl hst => ?_⟩
  rw [h5 rs (fun r h => (hrs r h).1) hl hst]
  refine calls_congr m fun r h => ?_
  rw [plain_left (hrs r h).2, right_payload hm hc]

/-! ### C53: arbitrary bytes -/

/-- Byte `j` of the rule set; zero behind the end. -/
def byte (c : Cfg) (ps : Nat → U8) (j : Nat) : U8 := if j < Ps.sizeDmNg c then ps (Ps.addrDmNg c + j) else 0

/-- The positions of the rules which are examined, at most `cnt`: rules follow one another, the evaluation ends with the first rule which is too large.  A
rule of size zero stands for the rule in front of it (at position `prev`). -/
def positions (B : Nat → U8) : (cnt prev pos : Nat) → List Nat
  | 0, _, _ => []
  | cnt + 1, prev, pos =>
    if 40 < (B pos).toNat then []
    else
      let p := if B pos = 0 then prev else pos
      p :: positions B cnt p (pos + (B pos).toNat)

theorem positions_len (B : Nat → U8) (cnt prev pos : Nat) : (positions B cnt prev pos).length ≤ cnt := by
  induction cnt generalizing prev pos with
  | zero => simp [positions]
  | succ n ih =>
    unfold positions
    split
    · simp
    · simp only [List.length_cons]
      have := ih (if B pos = 0 then prev else pos) (pos + (B pos).toNat)
      omega

/-- The buffer holds the rule at `p`. -/
structure Holds (B : Nat → U8) (buf : List U8) (p : Nat) : Prop where
  len : buf.length = 40
  pos : 0 < (B p).toNat
  max : (B p).toNat ≤ 40
  get : ∀ i, i < (B p).toNat → buf[i]? = some (B (p + i))

/-- The call for the rule at `p`. -/
def act (B : Nat → U8) (m : Msg) (p : Nat) : Out := .action (B (p + 1)) (B (p + 2)) m

theorem execRule_any {B : Nat → U8} {m : Msg} (hm : m.size.toNat ≤ 8) {buf : List U8} {p : Nat} (h : Holds B buf p) (w : W) :
    ∃ l, Vscp.DmNg.execRule buf m w = ((), { w with out := w.out ++ l }) ∧
      (l = [] ∨ l = [act B m p] ∧ 6 ≤ (B p).toNat ∧ B (p + 1) ≠ 0) := by
  have hl := h.len
  have h0 : buf[0]? = some (B p) := h.get 0 h.pos
  have triv : (((), w) : Unit × W) = ((), { w with out := w.out ++ [] }) := by rw [List.append_nil]
  unfold Vscp.DmNg.execRule
  by_cases h6 : 6 ≤ (B p).toNat
  · rw [h0, h.get 1 (by omega), h.get 2 (by omega)]
    simp only
    rw [if_pos h6]
    by_cases ha : B (p + 1) = 0
    · rw [if_neg (by simpa using ha)]
      exact ⟨[], triv, .inl rfl⟩
    · rw [if_pos ha]
      have hd := DmNg.getDecisionResult_some (m := m) (size := (B p).toNat - 3) (rule := buf) hm (by have := h.max; omega)
      cases hr : Vscp.DmNg.getDecisionResult buf ((B p).toNat - 3) m with
      | none => exact absurd hr hd
      | some b =>
        cases b with
        | false => exact ⟨[], triv, .inl rfl⟩
        | true => exact ⟨[act B m p], rfl, .inr ⟨rfl, h6, ha⟩⟩
  · rw [h0, List.getElem?_eq_getElem (show 1 < buf.length by omega), List.getElem?_eq_getElem (show 2 < buf.length by omega)]
    simp only
    rw [if_neg h6]
    exact ⟨[], triv, .inl rfl⟩

theorem readByte (c : Ctx) (j : Nat) (w : W) : Ps.readDmNg c j w = (byte c w.ps j, w) := by
  rw [Foot.ngRead_run]
  unfold byte
  split <;> rfl

/-- Fetching a rule. -/
theorem getNext_any (c : Ctx) {buf : List U8} {p : Nat} (w : W) (hc : w.dm.ngCnt ≠ 0) (hb : buf.length = 40)
    (h40 : (byte c w.ps w.dm.ngIdx.toNat).toNat ≤ 40)
    (h : byte c w.ps w.dm.ngIdx.toNat = 0 → Holds (byte c w.ps) buf p) :
    ∃ buf', Vscp.DmNg.getNextRule c buf w = (some buf', { w with dm := { w.dm with
        ngIdx := w.dm.ngIdx + (byte c w.ps w.dm.ngIdx.toNat).setWidth 16, ngCnt := w.dm.ngCnt - 1 } }) ∧
      Holds (byte c w.ps) buf' (if byte c w.ps w.dm.ngIdx.toNat = 0 then p else w.dm.ngIdx.toNat) := by
  refine ⟨(List.range (byte c w.ps w.dm.ngIdx.toNat).toNat).map (fun i => byte c w.ps (w.dm.ngIdx.toNat + i)) ++
    buf.drop (byte c w.ps w.dm.ngIdx.toNat).toNat, ?_, ?_⟩
  · rw [Foot.ngGetNextRule_run, if_neg hc]
    simp only [readByte]
    rw [if_neg (by omega)]
  · by_cases hz : byte c w.ps w.dm.ngIdx.toNat = 0
    · rw [if_pos hz, hz]
      exact h hz
    · rw [if_neg hz]
      have hz' : (byte c w.ps w.dm.ngIdx.toNat).toNat ≠ 0 := fun e => hz (BitVec.eq_of_toNat_eq e)
      refine ⟨by simp [hb]; omega, by omega, h40, fun i hi => ?_⟩
      rw [List.getElem?_append_left (by simpa using hi), List.getElem?_map, List.getElem?_range hi]
      rfl

theorem getNext_none (c : Ctx) {buf : List U8} (w : W) (h : w.dm.ngCnt = 0 ∨ 40 < (byte c w.ps w.dm.ngIdx.toNat).toNat) :
    Vscp.DmNg.getNextRule c buf w = (none, w) := by
  rw [Foot.ngGetNextRule_run]
  by_cases hc : w.dm.ngCnt = 0
  · rw [if_pos hc]
  · rw [if_neg hc]
    simp only [readByte]
    rw [if_pos (h.resolve_left hc)]

theorem cnt_pred {x : U8} (h : x ≠ 0) : (x - 1).toNat + 1 = x.toNat := by
  have h1 : x.toNat ≠ 0 := fun e => h (BitVec.eq_of_toNat_eq e)
  have := x.isLt
  rw [BitVec.toNat_sub, show (1 : U8).toNat = 1 from rfl]; omega

theorem rules_any (c : Ctx) {m : Msg} (hm : m.size.toNat ≤ 8) (n : Nat) :
    ∀ (buf : List U8) (p : Nat) (w : W), Holds (byte c w.ps) buf p → w.dm.ngCnt.toNat < n →
      w.dm.ngIdx.toNat + 40 * w.dm.ngCnt.toNat < 65536 →
      ∃ l d, Vscp.DmNg.rulesLoop c m n buf w = ((), { w with out := w.out ++ l, dm := d }) ∧
        List.Sublist l ((p :: positions (byte c w.ps) w.dm.ngCnt.toNat p w.dm.ngIdx.toNat).map (act (byte c w.ps) m)) ∧
        ∀ o ∈ l, ∃ q, o = act (byte c w.ps) m q ∧ 6 ≤ (byte c w.ps q).toNat ∧ byte c w.ps (q + 1) ≠ 0 := by
  induction n with
  | zero => intro _ _ _ _ h; omega
  | succ n ih =>
    intro buf p w hb hn hov
    obtain ⟨l0, h0, h0'⟩ := execRule_any hm hb w
    have hl0 : List.Sublist l0 ([p].map (act (byte c w.ps) m)) ∧
        ∀ o ∈ l0, ∃ q, o = act (byte c w.ps) m q ∧ 6 ≤ (byte c w.ps q).toNat ∧ byte c w.ps (q + 1) ≠ 0 := by
      rcases h0' with rfl | ⟨rfl, h6, ha⟩
      · exact ⟨by simp, by simp⟩
      · refine ⟨List.Sublist.refl _, fun o ho => ?_⟩
        rw [List.mem_singleton] at ho
        exact ⟨p, ho, h6, ha⟩
    unfold Vscp.DmNg.rulesLoop
    rw [bind_run, h0]
    simp only
    by_cases hs : w.dm.ngCnt = 0 ∨ 40 < (byte c w.ps w.dm.ngIdx.toNat).toNat
    · rw [bind_run, getNext_none c _ (by exact hs)]
      refine ⟨l0, w.dm, rfl, ?_, hl0.2⟩
      refine hl0.1.trans ?_
      exact List.Sublist.map _ (List.Sublist.cons_cons _ (List.nil_sublist _))
    · have hc : w.dm.ngCnt ≠ 0 := fun e => hs (.inl e)
      have h40 : (byte c w.ps w.dm.ngIdx.toNat).toNat ≤ 40 := by
        by_cases h : (byte c w.ps w.dm.ngIdx.toNat).toNat ≤ 40
        · exact h
        · exact absurd (.inr (by omega)) hs
      obtain ⟨buf', h1, h2⟩ := getNext_any c (buf := buf) (p := p) { w with out := w.out ++ l0 } hc hb.len h40 (fun _ => hb)
      rw [bind_run, h1]
      simp only at h2 ⊢
      have hcn := cnt_pred hc
      have hix : (w.dm.ngIdx + (byte c w.ps w.dm.ngIdx.toNat).setWidth 16).toNat = w.dm.ngIdx.toNat + (byte c w.ps w.dm.ngIdx.toNat).toNat := by
        rw [BitVec.toNat_add, BitVec.toNat_setWidth]; omega
      obtain ⟨l, d, h3, h4, h5⟩ := ih buf' _ { w with
          out := w.out ++ l0,
          dm := { w.dm with ngIdx := w.dm.ngIdx + (byte c w.ps w.dm.ngIdx.toNat).setWidth 16, ngCnt := w.dm.ngCnt - 1 } }
        h2 (by simp only; omega) (by simp only [hix]; omega)
      simp only [hix] at h4 h5
      refine ⟨l0 ++ l, d, by rw [h3, List.append_assoc], ?_, ?_⟩
      · rw [← hcn]
        unfold positions
        rw [if_neg (by omega)]
        exact List.Sublist.append hl0.1 h4
      · intro o ho
        rcases List.mem_append.mp ho with h | h
        · exact hl0.2 o h
        · exact h5 o h

/-- The rule set with any content. -/
theorem executeActions_any (c : Ctx) {m : Msg} (hm : m.size.toNat ≤ 8) (w : W)
    (h : byte c w.ps 0 = 0 ∨ byte c w.ps 1 ≠ 0) :
    ∃ l d, Vscp.DmNg.executeActions c m w = ((), { w with out := w.out ++ l, dm := d }) ∧
      List.Sublist l ((positions (byte c w.ps) (byte c w.ps 0).toNat 0 1).map (act (byte c w.ps) m)) ∧
      ∀ o ∈ l, ∃ q, o = act (byte c w.ps) m q ∧ 6 ≤ (byte c w.ps q).toNat ∧ byte c w.ps (q + 1) ≠ 0 := by
  unfold Vscp.DmNg.executeActions Vscp.DmNg.getFirstRule
  rw [bind_run, bind_run, readByte]
  simp only
  rw [bind_run, modify_run]
  simp only
  by_cases hs : byte c w.ps 0 = 0 ∨ 40 < (byte c w.ps 1).toNat
  · rw [getNext_none c _ (by exact hs)]
    exact ⟨[], _, by simp only [List.append_nil]; rfl, by simp, by simp⟩
  · have hc : byte c w.ps 0 ≠ 0 := fun e => hs (.inl e)
    have h40 : (byte c w.ps 1).toNat ≤ 40 := by
      by_cases h : (byte c w.ps 1).toNat ≤ 40
      · exact h
      · exact absurd (.inr (by omega)) hs
    have hz := h.resolve_left hc
    obtain ⟨buf', h1, h2⟩ := getNext_any c (buf := (List.range Vscp.DmNg.RULE_MAX_SIZE).map c.garbage) (p := 0)
      { w with dm := { w.dm with ngIdx := 1, ngCnt := byte c w.ps 0 } } hc (by simp [Vscp.DmNg.RULE_MAX_SIZE]) h40 (fun e => absurd e hz)
    rw [h1]
    simp only at h2 ⊢
    rw [show (1 : U16).toNat = 1 from rfl] at h2 ⊢
    rw [if_neg hz] at h2
    have hcn := cnt_pred hc
    have := (byte c w.ps 0).isLt
    have hix : (1 + (byte c w.ps 1).setWidth 16 : U16).toNat = 1 + (byte c w.ps 1).toNat := by
      rw [BitVec.toNat_add, BitVec.toNat_setWidth, show (1 : U16).toNat = 1 from rfl]; omega
    obtain ⟨l, d, h3, h4, h5⟩ := rules_any c hm 256 buf' 1 { w with
        dm := { w.dm with ngIdx := 1 + (byte c w.ps 1).setWidth 16, ngCnt := byte c w.ps 0 - 1 } }
      h2 (by simp only; omega) (by simp only [hix]; omega)
    simp only [hix] at h4 h5
    refine ⟨l, d, h3, ?_, h5⟩
    rw [← hcn]
    unfold positions
    rw [if_neg (by omega)]
    simp only
    rw [if_neg hz]
    exact h4

/-- C53: whatever bytes are in the memory of the rule set, for every event an active node receives the calls of the next generation rules (`ng`) are a part
of those of the rules in the rule set, in order; not more than the first byte of the rule set announces, each with an action which is a byte
of the rule set and not zero.  Nothing but the traces of the node changes by an access outside of arrays (see C47).  Missing: rule sets with
at least one announced rule, whose first rule has size zero. -/
theorem C53_partial (c : Ctx) (rx : Option Msg) (m : Msg) (w : W) (hng : c.dmNg = true) (hn : c.dm = true → c.dmRows ≤ 255)
    (ha : w.v.st = .active) (hr : (readMessage c rx w).1 = some m) (hm : m.size.toNat ≤ 8) :
    ∃ t0 ng t1, (stepOp c (.process rx) w).2.out =
        w.out ++ (t0 ++ ((if c.dm then Dm.calls (matrix c (memAfter w.ps t0)) m m.data.toList else []) ++ ng) ++ t1) ∧
      actions t0 = [] ∧ actions t1 = [] ∧ (m.cls ≠ 0 → t0 = [.event m]) ∧
      let B := byte c (memAfter w.ps t0)
      (B 0 = 0 ∨ B 1 ≠ 0) →
        ng.length ≤ (B 0).toNat ∧ List.Sublist ng ((positions B (B 0).toNat 0 1).map (fun p => .action (B (p + 1)) (B (p + 2)) m)) ∧
        ∀ o ∈ ng, ∃ p, p + 1 < c.ngSize ∧ 6 ≤ (B p).toNat ∧ B (p + 1) ≠ 0 ∧ o = .action (B (p + 1)) (B (p + 2)) m := by
  obtain ⟨t0, ng, t1, w', h1, h2, h3, h4, h5, h6⟩ := ng_cycle c rx m w hng hn ha hr hm
  refine ⟨t0, ng, t1, h1, h2, h3, h4, fun hB => ?_⟩
  rw [← h5] at hB ⊢
  obtain ⟨l, d, h7, h8, h9⟩ := executeActions_any c hm w' hB
  rw [h7] at h6
  have : l = ng := List.append_cancel_left h6
  subst this
  refine ⟨?_, h8, fun o ho => ?_⟩
  · have := h8.length_le
    rw [List.length_map] at this
    exact Nat.le_trans this (positions_len _ _ _ _)
  · obtain ⟨q, e, hq, hq'⟩ := h9 o ho
    refine ⟨q, ?_, hq, hq', e⟩
    have hs : Ps.sizeDmNg c = c.ngSize := by unfold Ps.sizeDmNg; rw [if_pos hng]
    unfold byte at hq'
    split at hq'
    · omega
    · exact absurd rfl hq'

/-! ### Concrete cases -/

/-- The memory of a node with a nickname and the given bytes as rule set. -/
def ngMem (l : List U8) : Nat → U8 := fun a =>
  if Ps.addrDmNg Ex.ctx ≤ a ∧ a < Ps.addrDmNg Ex.ctx + l.length then l.getD (a - Ps.addrDmNg Ex.ctx) 0 else mem 0x60 a

/-- IF type = 9 AND type = 6 OR origin = 9 THEN action 5. -/
def mixed : Rule := ⟨5, 1, .and ⟨.eq, .typ, 9⟩ (.or ⟨.eq, .typ, 6⟩ (.last ⟨.eq, .oAddr, 9⟩))⟩

/-- C52 is violated: a rule whose conditions hold from left to right for an event is not executed; the evaluation ends with the first condition. -/
theorem C52_violated : let m := Ex.msg 10 6 9 [1, 2]
    RuleOk mixed ∧ Stored Ex.ctx (ngMem (ruleSet [mixed])) 0 (ruleSet [mixed]) ∧ mixed.chain.HoldsLeft m (payload m) id ∧
    actions (node Ex.ctx allOk (ngMem (ruleSet [mixed])) [.process none, .process (some m)]).out = [] := by
  refine ⟨⟨?_, by decide⟩, ?_, .inr rfl, by decide +kernel⟩
  · intro x hx
    simp only [mixed, Chain.conds, List.mem_cons, List.not_mem_nil, or_false] at hx
    rcases hx with rfl | rfl | rfl <;> exact ⟨by decide, fun i h => by cases h⟩
  · intro j hj
    have : ∀ j < (ruleSet [mixed]).length, 0 + j < Ps.sizeDmNg Ex.ctx.toCfg ∧
      (ruleSet [mixed])[j]? = some (ngMem (ruleSet [mixed]) (Ps.addrDmNg Ex.ctx.toCfg + (0 + j))) := by decide +kernel
    exact this j hj

/-- IF zone = 7 THEN action 5. -/
def zoneRule : Rule := ⟨5, 1, .last ⟨.eq, .zone, 7⟩⟩

/-- C52 is violated: two events which are the same as far as they are on the bus, without a zone (255).  One of them executes an action, depending on what
is behind the payload. -/
theorem C52_zone_violated : payload (shortEvent 0) = payload (shortEvent 7) ∧ payload (shortEvent 7) = [0] ∧
    zoneRule.chain.Plain ∧ ¬ zoneRule.chain.HoldsLeft (shortEvent 7) (payload (shortEvent 7)) id ∧
    actions (node Ex.ctx allOk (ngMem (ruleSet [zoneRule])) [.process none, .process (some (shortEvent 7))]).out =
      [.action 5 1 (shortEvent 7)] ∧
    actions (node Ex.ctx allOk (ngMem (ruleSet [zoneRule])) [.process none, .process (some (shortEvent 0))]).out = [] := by
  refine ⟨by decide, by decide, .inl trivial, ?_, by decide +kernel, by decide +kernel⟩
  intro h
  have h : zoneValue (shortEvent 7) (payload (shortEvent 7)) 0 = 7 := h
  rw [show payload (shortEvent 7) = [0] by decide] at h
  unfold zoneValue at h
  rw [if_neg (by simp [ZoneInByte0, shortEvent, Ex.msg])] at h
  split at h <;> simp at h

/-- IF class = 10 AND data[1] & 0x82 AND sub-zone >= 3 THEN action 5; IF priority < 3 OR count = 3 THEN action 6; a rule without action. -/
def three : List Rule :=
  [⟨5, 1, .and ⟨.eq, .cls, 10⟩ (.and ⟨.mask, .data 1, 0x82⟩ (.last ⟨.ge, .subZone, 3⟩))⟩,
   ⟨6, 2, .or ⟨.lt, .prio, 3⟩ (.last ⟨.eq, .num, 3⟩)⟩, ⟨0, 3, .last ⟨.ge, .oAddr, 0⟩⟩]

-- The hypotheses of `C52_right_partial` and `C52_rules_partial`: the rules can be written down and do not mix AND and OR, the rule set is in the memory
-- behind the event, the node is active and receives the event.
example : (∀ r ∈ three, RuleOk r ∧ r.chain.Plain) ∧ three.length < 256 ∧
    Stored Ex.ctx (memAfter (ngMem (ruleSet three)) [.event (Ex.msg 10 6 9 [1, 2, 3])]) 0 (ruleSet three) := by
  refine ⟨?_, by decide, ?_⟩
  · intro r hr
    simp only [three, List.mem_cons, List.not_mem_nil, or_false] at hr
    rcases hr with rfl | rfl | rfl
    · refine ⟨⟨?_, by decide⟩, .inl trivial⟩
      intro x hx
      simp only [Chain.conds, List.mem_cons, List.not_mem_nil, or_false] at hx
      rcases hx with rfl | rfl | rfl <;> exact ⟨by decide, fun i h => by cases h⟩
    · refine ⟨⟨?_, by decide⟩, .inr trivial⟩
      intro x hx
      simp only [Chain.conds, List.mem_cons, List.not_mem_nil, or_false] at hx
      rcases hx with rfl | rfl <;> exact ⟨by decide, fun i h => by cases h⟩
    · refine ⟨⟨?_, by decide⟩, .inl trivial⟩
      intro x hx
      simp only [Chain.conds, List.mem_cons, List.not_mem_nil, or_false] at hx
      rcases hx with rfl
      exact ⟨by decide, fun i h => by cases h⟩
  · intro j hj
    have : ∀ j < (ruleSet three).length, 0 + j < Ps.sizeDmNg Ex.ctx.toCfg ∧
      (ruleSet three)[j]? = some (ngMem (ruleSet three) (Ps.addrDmNg Ex.ctx.toCfg + (0 + j))) := by decide +kernel
    exact this j hj

example : let w := node Ex.ctx allOk (ngMem (ruleSet three)) [.process none]
    let m := Ex.msg 10 6 9 [1, 2, 3]
    w.v.st = .active ∧ (readMessage Ex.ctx (some m) w).1 = some m ∧ m.size.toNat ≤ 8 ∧ Ex.ctx.dmNg = true ∧
    actions (stepOp Ex.ctx (.process (some m)) w).2.out = [.action 5 1 m, .action 6 2 m] := by
  decide +kernel

example : Complete (Ex.msg 10 6 9 [1, 2, 3]) := ⟨fun _ => by decide, fun _ => by decide⟩

/-- A node whose uninitialised local variables happen to hold a rule: action 9 for every event. -/
def dirty : Ctx := { Ex.ctx with garbage := fun i => [6, 9, 0, 5, 3, 0].getD i 0 }

/-- C53 is violated: a rule set with one announced rule of size zero.  An action is executed which is nowhere in the memory of the node. -/
theorem C53_violated : let m := Ex.msg 10 6 9 [1, 2]
    (∀ j, byte dirty (ngMem [1, 0]) j ≠ 9) ∧
    actions (node dirty allOk (ngMem [1, 0]) [.process none, .process (some m)]).out = [.action 9 0 m] := by
  refine ⟨fun j => ?_, by decide +kernel⟩
  unfold byte
  split
  · rename_i h
    have : ∀ j < Ps.sizeDmNg dirty.toCfg, ngMem [1, 0] (Ps.addrDmNg dirty.toCfg + j) ≠ 9 := by decide +kernel
    exact this j h
  · decide

-- The hypothesis of `C53_partial` on the rule set: three rules are announced, behind the first one is a rule of size zero, which is never left: the first
-- rule is executed three times.
example : let B := byte Ex.ctx (ngMem [3, 6, 9, 0, 5, 3, 0])
    (B 0 = 0 ∨ B 1 ≠ 0) ∧ positions B (B 0).toNat 0 1 = [1, 1, 1] ∧
    actions (node Ex.ctx allOk (ngMem [3, 6, 9, 0, 5, 3, 0]) [.process none, .process (some (Ex.msg 10 6 9 [1, 2]))]).out =
      [.action 9 0 (Ex.msg 10 6 9 [1, 2]), .action 9 0 (Ex.msg 10 6 9 [1, 2]), .action 9 0 (Ex.msg 10 6 9 [1, 2])] := by
  decide +kernel

end Vscp.NgProps
