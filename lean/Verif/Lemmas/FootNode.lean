/-
Footprints of the rule interpreter and of the state functions.
-/
import Verif.Lemmas.Foot
import Verif.Model.Node

namespace Vscp
open M

namespace DmNg

theorem getEventParValue_some {m : Msg} (hm : m.size.toNat ≤ 8) (p d : U8) : getEventParValue m p d ≠ none := by
  have hd : ∀ i, dataValue m i ≠ none := by
    intro i
    unfold dataValue
    split
    · rw [Vector.getElem?_eq_getElem (by omega)]; simp
    · simp
  have hz : (getSubZone m).map (·.setWidth 16) ≠ none := by
    unfold getSubZone
    dsimp only
    split
    · rename_i h
      have h8 : (Util.getZoneIndex m.cls m.typ).toNat + 1 < 8 := Util.zoneIndex_next _ _ h
      rw [Vector.getElem?_eq_getElem h8]
      simp
    · simp
  unfold getEventParValue
  split
  all_goals first
    | exact hd _
    | exact hz
    | simp

/-- With a rule inside of the buffer no access is outside. -/
theorem parseCond_some {rule : List U8} {size index : Nat} {m : Msg} (hm : m.size.toNat ≤ 8)
    (hr : 3 + size ≤ rule.length) : parseCond rule size m index ≠ none := by
  unfold parseCond
  split
  · simp
  · have h0 : 3 + index < rule.length := by omega
    have h1 : 3 + (index + 1) < rule.length := by omega
    have h2 : 3 + (index + 2) < rule.length := by omega
    rw [List.getElem?_eq_getElem h0]
    dsimp only
    split
    · simp
    · split
      · simp
      · rw [List.getElem?_eq_getElem h1]
        dsimp only
        split
        · simp
        · rw [List.getElem?_eq_getElem h2]
          rename_i hi _ _ _
          by_cases hp : rule[3 + (index + 1)] = 16
          · simp only [hp, if_true]
            split
            · simp
            · rename_i h3
              have h3' : 3 + (index + 3) < rule.length := by simp only [true_and] at h3; omega
              rw [List.getElem?_eq_getElem h3']
              cases hg : getEventParValue m 16 rule[3 + (index + 2)] with
              | none => exact absurd hg (getEventParValue_some hm _ _)
              | some par => simp
          · simp only [hp, if_false, false_and]
            rw [List.getElem?_eq_getElem h2]
            cases hg : getEventParValue m rule[3 + (index + 1)] 0 with
            | none => exact absurd hg (getEventParValue_some hm _ _)
            | some par =>
              dsimp only
              split
              · split
                · simp
                · rename_i h4
                  have h4' : 3 + (index + 2 + 1) < rule.length := by omega
                  rw [List.getElem?_eq_getElem h4']
                  simp
              · simp

theorem decisionLoop_some {rule : List U8} {size : Nat} {m : Msg} (hm : m.size.toNat ≤ 8)
    (hr : 3 + size ≤ rule.length) (index : Nat) (result : Bool) (prev : Option U8) :
    decisionLoop rule size m index result prev ≠ none := by
  fun_induction decisionLoop rule size m index result prev with
  | case1 _ _ _ h => exact absurd h (parseCond_some hm hr)
  | case7 => assumption
  | _ => simp

theorem getDecisionResult_some {rule : List U8} {size : Nat} {m : Msg} (hm : m.size.toNat ≤ 8)
    (hr : 3 + size ≤ rule.length) : getDecisionResult rule size m ≠ none := by
  unfold getDecisionResult
  split
  · simp
  · exact decisionLoop_some hm hr _ _ _

/-- The rule buffer: 40 bytes, the first one is the size of the rule. -/
def BufOk (buf : List U8) : Prop := buf.length = 40 ∧ (buf.headD 0).toNat ≤ 40

end DmNg

namespace Foot
variable {c : Ctx} {bad : Prop} {A B : List Act} {α β : Type}

theorem ngExecRule {m : Msg} {buf : List U8} (hbuf : bad ∨ DmNg.BufOk buf) (hb : 8 < m.size.toNat → bad) :
    Foot c bad [.action, .ub] (DmNg.execRule buf m) := by
  by_cases hbad : bad
  · unfold DmNg.execRule
    split
    · refine .ite (fun _ => .ite (fun _ => ?_) fun _ => .pure _) fun _ => .pure _
      split
      · exact .one (a := .action) (by decide) fun w => ⟨_, _, _, rfl⟩
      · exact .pure _
      · exact .markUb hbad (by decide)
    · exact .markUb hbad (by decide)
  · obtain ⟨hl, h0⟩ : DmNg.BufOk buf := hbuf.resolve_left hbad
    have hm : m.size.toNat ≤ 8 := Nat.le_of_not_lt fun h => hbad (hb h)
    unfold DmNg.execRule
    rw [List.getElem?_eq_getElem (by omega : 0 < buf.length), List.getElem?_eq_getElem (by omega : 1 < buf.length),
      List.getElem?_eq_getElem (by omega : 2 < buf.length)]
    dsimp only
    refine .ite (fun h6 => .ite (fun _ => ?_) fun _ => .pure _) fun _ => .pure _
    have h0' : buf[0].toNat ≤ 40 := by
      cases buf with
      | nil => simp at hl
      | cons a l => exact h0
    cases hd : DmNg.getDecisionResult buf (buf[0].toNat - 3) m with
    | none => exact absurd hd (DmNg.getDecisionResult_some hm (by omega))
    | some b =>
      cases b
      · exact .pure _
      · exact .one (a := .action) (by decide) fun w => ⟨_, _, _, rfl⟩

theorem ngGetNextRule {buf : List U8} : Foot c bad [.ngVars] (DmNg.getNextRule c buf) := by
  unfold DmNg.getNextRule
  exact .bind .get fun w => .ite (fun _ => .pure _) fun _ => .bind (.readIdx _ _ _) fun _ => .ite (fun _ => .pure _)
    fun _ => .bind .get fun _ => .bind (.one (a := .ngVars) (by decide) fun w => ⟨_, _, rfl⟩) fun _ => .pure _

theorem ngRead_run (i : Nat) (w : W) :
    Ps.readDmNg c i w = (if Ps.sizeDmNg c > i then w.ps (Ps.addrDmNg c + i) else 0, w) := by
  unfold Ps.readDmNg Ps.readIdx
  simp only [ite_run]
  split <;> rfl

theorem ngGetNextRule_run (buf : List U8) (w : W) : DmNg.getNextRule c buf w =
    if w.dm.ngCnt = 0 then (none, w)
    else if 40 < (Ps.readDmNg c w.dm.ngIdx.toNat w).1.toNat then (none, w)
    else (some ((List.range (Ps.readDmNg c w.dm.ngIdx.toNat w).1.toNat).map (fun i =>
        (Ps.readDmNg c (w.dm.ngIdx.toNat + i) w).1) ++ buf.drop (Ps.readDmNg c w.dm.ngIdx.toNat w).1.toNat),
      { w with dm := { w.dm with
        ngIdx := w.dm.ngIdx + (Ps.readDmNg c w.dm.ngIdx.toNat w).1.setWidth 16, ngCnt := w.dm.ngCnt - 1 } }) := by
  unfold DmNg.getNextRule
  rw [bind_run, get_run]
  by_cases h : w.dm.ngCnt = 0
  · rw [if_pos h, if_pos h]; rfl
  · rw [if_neg h, if_neg h, bind_run]
    have h2 : (Ps.readDmNg c.toCfg w.dm.ngIdx.toNat w).2 = w := by rw [ngRead_run]
    rw [h2]
    by_cases h3 : 40 < (Ps.readDmNg c.toCfg w.dm.ngIdx.toNat w).1.toNat
    · rw [if_pos h3, if_pos (show DmNg.RULE_MAX_SIZE < _ from h3)]; rfl
    · rw [if_neg h3, if_neg (show ¬ DmNg.RULE_MAX_SIZE < _ from h3)]; rfl

theorem ngGetNextRule_cnt {buf buf' : List U8} {w : W} (h : (DmNg.getNextRule c buf w).1 = some buf') :
    (DmNg.getNextRule c buf w).2.dm.ngCnt.toNat + 1 = w.dm.ngCnt.toNat := by
  rw [ngGetNextRule_run] at h ⊢
  split at h
  · simp at h
  · rename_i hc
    split at h
    · simp at h
    · rename_i hsz
      rw [if_neg hc, if_neg hsz]
      have h1 : w.dm.ngCnt.toNat ≠ 0 := fun h => hc (by simpa using congrArg (BitVec.ofNat 8) h)
      simp only
      rw [BitVec.toNat_sub]
      simp
      omega

theorem ngGetNextRule_spec {buf buf' : List U8} {w : W} (hbuf : DmNg.BufOk buf)
    (h : (DmNg.getNextRule c buf w).1 = some buf') : DmNg.BufOk buf' := by
  rw [ngGetNextRule_run] at h
  split at h
  · simp at h
  · split at h
    · simp at h
    · rename_i hsz
      simp only [Option.some.injEq] at h
      subst h
      refine ⟨?_, ?_⟩
      · simp only [List.length_append, List.length_map, List.length_range, List.length_drop]
        have := hbuf.1
        omega
      · by_cases hz : (Ps.readDmNg c.toCfg (BitVec.toNat w.dm.ngIdx) w).1.toNat = 0
        · rw [hz]
          exact hbuf.2
        · obtain ⟨k, hk⟩ := Nat.exists_eq_succ_of_ne_zero hz
          rw [hk] at hsz ⊢
          rw [List.range_succ_eq_map]
          simp only [List.map_cons, List.cons_append, List.headD_cons, Nat.add_zero]
          rw [hk]
          omega

theorem ngRulesLoop {m : Msg} (hb : 8 < m.size.toNat → bad) (n : Nat) (buf : List U8) (w : W)
    (hbuf : bad ∨ DmNg.BufOk buf) (hn : w.dm.ngCnt.toNat < n) :
    Steps c bad [.ngVars, .action, .ub] w (DmNg.rulesLoop c m n buf w).2 := by
  induction n generalizing buf w with
  | zero => omega
  | succ n ih =>
    unfold DmNg.rulesLoop
    have hfr : (DmNg.execRule buf m w).2.dm = w.dm := by
      have := (ngExecRule (c := c) (bad := True) (m := m) (buf := buf) (.inl trivial) (fun _ => trivial)) w
      refine this.inv (P := fun w' => w'.dm = w.dm) ?_ rfl
      intro a ha w1 w2 hs h
      simp only [List.mem_cons, List.not_mem_nil, or_false] at ha
      obtain rfl | rfl := ha
      · obtain ⟨_, _, _, rfl⟩ := hs; exact h
      · obtain ⟨_, rfl⟩ := hs; exact h
    rw [bind_run]
    refine Steps.trans ((ngExecRule hbuf hb).mono (by decide) w) ?_
    generalize (DmNg.execRule buf m w).2 = w1 at hfr
    rw [bind_run]
    refine Steps.trans ((ngGetNextRule (buf := buf)).mono (by decide) w1) ?_
    cases hg : (DmNg.getNextRule c buf w1).1 with
    | none => exact .refl _
    | some buf' =>
      have hcnt := ngGetNextRule_cnt hg
      rw [hfr] at hcnt
      exact ih _ _ (hbuf.imp_right fun h => ngGetNextRule_spec h hg) (by omega)

theorem ngExecuteActions {m : Msg} (hb : 8 < m.size.toNat → bad) (hg : 40 < (c.garbage 0).toNat → bad) :
    Foot c bad [.ngVars, .action, .ub] (DmNg.executeActions c m) := by
  intro w
  unfold DmNg.executeActions
  rw [bind_run]
  have hf : Foot c bad [.ngVars, .action, .ub]
      (DmNg.getFirstRule c ((List.range DmNg.RULE_MAX_SIZE).map c.garbage)) := by
    unfold DmNg.getFirstRule
    exact .bind (.readIdx _ _ _) fun _ => .bind (.one (a := .ngVars) (by decide) fun w => ⟨_, _, rfl⟩) fun _ =>
      ngGetNextRule.mono (by decide)
  refine Steps.trans (hf w) ?_
  cases hr : (DmNg.getFirstRule c ((List.range DmNg.RULE_MAX_SIZE).map c.garbage) w).1 with
  | none => exact .refl _
  | some buf =>
    refine ngRulesLoop hb 256 buf _ ?_ (BitVec.isLt _)
    by_cases hbad : bad
    · exact .inl hbad
    · refine .inr ?_
      unfold DmNg.getFirstRule at hr
      rw [bind_run, bind_run] at hr
      refine ngGetNextRule_spec ⟨?_, ?_⟩ hr
      · simp [DmNg.RULE_MAX_SIZE]
      · exact Nat.le_of_not_lt fun h => hbad (hg h)

/-! ### State functions -/

theorem stateStartup {rx : Option Msg} :
    Foot c bad [.guid, .tm .guidDrop, .st .init, .ist, .nick, .st .reset, .sec, .tm .main, .st .active, .tx,
      .tm .heartbeat] (Core.stateStartup c rx) := by
  unfold Core.stateStartup
  refine .bind .get fun _ => .ite (fun _ => .ite (fun _ => ?_) fun _ => ?_) fun _ => .changeToStateActive (by decide)
  · cases rx with
    | none => exact .pure _
    | some m => exact .whenM fun _ => .mono .handleGuidDropNickname (by decide)
  · exact .bind .getStartUpControl fun _ => .whenM fun _ => .changeToStateInit (by decide)

theorem stateInit {rx : Option Msg} (w : W) (hw : w.v.st = .init) :
    Steps c bad [.tx, .ist, .tm .main, .st .preActive, .st .idle, .idleEntered, .nick, .st .active, .tm .heartbeat]
      w (Core.stateInit c rx w).2 := by
  unfold Core.stateInit
  rw [bind_run, get_run]
  dsimp only
  have ist : ∀ (f : Vars → ISt) (g : Vars → U8),
      Foot c bad [.tx, .ist, .tm .main, .st .preActive, .st .idle, .idleEntered, .nick, .st .active, .tm .heartbeat]
        (setV fun v => { v with ist := f v, probe := g v }) := fun f g =>
    .one (a := .ist) (by decide) fun w => ⟨_, _, rfl⟩
  cases w.v.ist <;> dsimp only
  · exact Foot.bind (.tx (.inl (by simp)) (by decide)) (fun _ => .whenM fun _ => .bind (ist (fun _ => _) (fun v => v.probe)) fun _ =>
      .timerStart _ (by decide)) w
  · rw [bind_run, timerRunning_run]
    dsimp only
    rw [ite_run]
    split
    · exact ist _ _ w
    · rw [whenM_run]
      split
      · exact Foot.changeToStatePreActive (by decide) w hw
      · exact .refl _
  · exact Foot.bind (.tx (.inl (by simp)) (by decide)) (fun _ => .whenM fun _ => .ite (fun _ =>
      .bind (.timerStop (by decide)) fun _ => .changeToStateIdle (by decide)) fun _ =>
      .bind (ist (fun _ => _) (fun v => v.probe)) fun _ => .timerStart _ (by decide)) w
  · exact Foot.bind (.timerRunning _) (fun _ => .ite (fun _ => .bind (.writeNicknameId (by decide)) fun _ =>
      .changeToStateActive (by decide)) fun _ => .whenM fun _ => .bind (.timerStop (by decide)) fun _ => ist _ _) w

theorem statePreActive {rx : Option Msg} :
    Foot c bad [.st .init, .ist, .nick, .tm .main, .tx, .st .active, .tm .heartbeat] (Core.statePreActive c rx) := by
  unfold Core.statePreActive
  refine .bind (.timerRunning _) fun _ => .ite (fun _ => .changeToStateInit (by decide)) fun _ => ?_
  cases rx with
  | none => exact .pure _
  | some m =>
    exact .whenM fun _ => .bind (.timerStop (by decide)) fun _ => .bind (.writeNicknameId (by decide)) fun _ =>
      .bind (.txVoid (.inl (by simp)) (by decide)) fun _ => .changeToStateActive (by decide)

end Foot

/-- Steps of the processing of an event in the active state. -/
def eventActs : List Act := [.protoEvent, .event, .ngVars, .action] ++ protoActs

namespace Foot
variable {c : Ctx} {bad : Prop} {A B : List Act} {α β : Type}

theorem activeEvent {m : Msg} (hb : 8 < m.size.toNat → bad) (hr : c.dm = true → 255 < c.dmRows → bad)
    (hg : c.dmNg = true → 40 < (c.garbage 0).toNat → bad) : Foot c bad eventActs (Core.activeEvent c m) := by
  unfold Core.activeEvent
  refine .bind (.ite (fun _ => .ite (fun _ => ?_) fun _ => ?_) fun _ => ?_) fun _ => .bind (.whenM fun h => ?_) fun _ =>
    .whenM fun h => ?_
  · exact .bind .get fun _ => .bind (.one (a := .protoEvent) (by decide) fun w => ⟨_, _, rfl⟩) fun _ => .whenM fun _ =>
      .mono (.handleProtocolClassType hb) (by decide)
  · exact .mono (.handleProtocolClassType hb) (by decide)
  · exact .one (a := .event) (by decide) fun w => ⟨_, rfl⟩
  · exact .mono (.dmExecuteActions (hr h)) (by decide)
  · exact .mono (.ngExecuteActions hb (hg h)) (by decide)

theorem activeHeartbeat : Foot c bad [.customHb, .tx, .tm .heartbeat] (Core.activeHeartbeat c) := by
  unfold Core.activeHeartbeat
  refine .bind .get fun w => .bind (.timerRunning _) fun _ => .whenM fun _ => .bind (.ite (fun _ => ?_) fun _ => ?_)
    fun _ => .timerStart _ (by decide)
  · exact .one (a := .customHb) (by decide) fun w => rfl
  · refine .bind .zoneRead fun z => .bind .subZoneRead fun s w => ?_
    refine .one (a := .tx) (by decide) ⟨⟨3, 20, 9, w.v.nick, c.hardCoded, 3, bytes8 [0, z, s]⟩, .inl rfl, ⟨rfl, show (3 : U8).toNat < 8 by decide, show (20 : U16).toNat < 512 by decide⟩, .inl ?_, rfl⟩
    exact Nat.le_of_ble_eq_true rfl

theorem activeExtRead : Foot c bad [.alarm, .appRead, .tx, .ext] (Core.activeExtRead c) := by
  unfold Core.activeExtRead
  exact .bind .get fun _ => .ite (fun _ => .bind .extendedPageReadRegister fun _ => .pure _) fun _ => .pure _

theorem stateActive {rx : Option Msg} (hb : ∀ m, rx = some m → 8 < m.size.toNat → bad)
    (hr : c.dm = true → 255 < c.dmRows → bad) (hg : c.dmNg = true → 40 < (c.garbage 0).toNat → bad) :
    Foot c bad (.customHb :: .tm .heartbeat :: eventActs) (Core.stateActive c rx) := by
  unfold Core.stateActive
  refine .bind ?_ fun _ => .bind (.mono .activeHeartbeat (by decide)) fun _ => .bind (.mono .activeExtRead (by decide))
    fun _ => .pure _
  cases rx with
  | none => exact .pure _
  | some m => exact .mono (.activeEvent (hb m rfl) hr hg) (by decide)

theorem stateReset : Foot c bad [.sec, .resetReq, .tm .main] Core.stateReset := by
  intro w
  unfold Core.stateReset
  simp only [bind_run, get_run, timerRunning_run, whenM_run]
  split
  · rename_i h
    simp only [setV_run]
    refine Steps.trans (w' := { w with v := { w.v with
      secCnt := if 0 < w.v.secCnt.toNat then w.v.secCnt - 1 else w.v.secCnt } }) (.one (a := .sec) (by decide) ⟨_, rfl⟩) ?_
    rw [ite_run]
    generalize (if 0 < w.v.secCnt.toNat then w.v.secCnt - 1 else w.v.secCnt) = s
    split
    · exact .one (a := .resetReq) (by decide) ⟨h.1, rfl⟩
    · exact Foot.timerStart (t := .main) _ (by decide) _
  · exact .refl _

theorem epochTick : Foot c bad [.epochSet, .tm .epoch] Core.epochTick := by
  unfold Core.epochTick
  exact .bind .get fun _ => .bind (.timerRunning _) fun _ => .whenM fun _ =>
    .bind (.one (a := .epochSet) (by decide) fun w => ⟨_, rfl⟩) fun _ => .timerStart _ (by decide)

end Foot

/-- All steps of the state machine. -/
def coreActs : List Act :=
  [.customHb, .tm .heartbeat, .st .preActive, .st .active, .resetReq] ++ eventActs

namespace Foot
variable {c : Ctx} {bad : Prop}

theorem dispatch {rx : Option Msg} (hb : ∀ m, rx = some m → 8 < m.size.toNat → bad)
    (hr : c.dm = true → 255 < c.dmRows → bad) (hg : c.dmNg = true → 40 < (c.garbage 0).toNat → bad) :
    Foot c bad coreActs (Core.dispatch c rx) := by
  unfold Core.dispatch
  intro w
  rw [bind_run, get_run]
  dsimp only
  cases hs : w.v.st with
  | startup => exact Foot.bind (.mono .stateStartup (by decide)) (fun _ => .pure _) w
  | init => exact (Foot.stateInit w hs).mono (by decide)
  | preActive => exact Foot.bind (.mono .statePreActive (by decide)) (fun _ => .pure _) w
  | active => exact Foot.mono (.stateActive hb hr hg) (by decide) w
  | idle => exact .refl w
  | reset => exact Foot.bind (.mono .stateReset (by decide)) (fun _ => .pure _) w
  | error => exact .refl w

end Foot

/-! ### Process -/

/-- What `process` does before the state machine: message reception, logger control, time. -/
def preProcess (c : Ctx) (rx : Option Msg) : M (Option Msg) := do
  let r ← Transport.readMessage c rx
  setV fun v => { v with rx := r.getD v.rx }
  let w ← get
  whenM c.logger (Logger.handleEvent c w.v.rx)
  Core.epochTick
  pure r

theorem process_split (c : Ctx) (rx : Option Msg) (w : W) : Core.process c rx w =
    (((preProcess c rx w).1.isSome || (Core.dispatch c (preProcess c rx w).1 (preProcess c rx w).2).1),
      (Core.dispatch c (preProcess c rx w).1 (preProcess c rx w).2).2) := rfl

end Vscp
