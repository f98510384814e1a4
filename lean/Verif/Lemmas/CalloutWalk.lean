/-
Cycles of a node whose application calls the framework in its callbacks: a relation which holds for the own steps of a cycle behind the handler of the
event, and for the callbacks, holds for this part of the cycle.
-/
import Verif.Lemmas.Callout
import Verif.Lemmas.Frame
import Verif.Lemmas.Ops
import Verif.Spec.States

namespace Vscp
open M Transport

/-- The own steps of a cycle of an active node, without the handler of a protocol event. -/
def ownActs : List Act := [.tx, .event, .action, .ngVars, .ub, .customHb, .tm .heartbeat, .alarm, .appRead, .ext]

/-- The relation holds for the own steps and the callbacks. -/
structure Walk (c : Ctx) (cb : Callbacks) (R : W → W → Prop) : Prop where
  refl : ∀ w, R w w
  trans : ∀ {w w' w''}, R w w' → R w' w'' → R w w''
  own : ∀ {w w'}, Steps c True ownActs w w' → R w w'
  call : ∀ w, R w (callback c cb w).2

/-- The relation holds for a function. -/
def Walks (R : W → W → Prop) {α : Type} (m : M α) : Prop := ∀ w, R w (m w).2

namespace Walks
variable {c : Ctx} {cb : Callbacks} {R : W → W → Prop} {α β : Type} (hR : Walk c cb R)
include hR

theorem pure (a : α) : Walks R (pure a : M α) := fun w => hR.refl w
theorem get : Walks R M.get := fun w => hR.refl w
theorem bind {m : M α} {f : α → M β} (h : Walks R m) (h' : ∀ a, Walks R (f a)) : Walks R (m >>= f) := fun w => hR.trans (h w) (h' _ _)
omit hR in
theorem ite {p : Prop} [Decidable p] {m m' : M α} (h : p → Walks R m) (h' : ¬p → Walks R m') : Walks R (if p then m else m') := by
  split
  · exact h ‹_›
  · exact h' ‹_›
theorem whenM {p : Prop} [Decidable p] {m : M Unit} (h : p → Walks R m) : Walks R (whenM p m) := .ite h fun _ => .pure hR _
theorem forUp {f : Nat → M Unit} (h : ∀ i, Walks R (f i)) (n : Nat) : Walks R (forUp f n) := by
  induction n with
  | zero => exact .pure hR _
  | succ n ih => exact .bind hR ih fun _ => h _
theorem of {A : List Act} {m : M α} (h : Foot c True A m) (hA : A ⊆ ownActs := by decide) : Walks R m := fun w => hR.own ((h w).mono hA)

theorem action (i p : U8) (m : Msg) : Walks R (do emit (.action i p m); Vscp.callback c cb) :=
  .bind hR (.of hR (A := [.action]) (.one (a := .action) (by decide) fun w => ⟨_, _, _, rfl⟩)) fun _ => hR.call

theorem markUb : Walks R Vscp.markUb := .of hR (A := [.ub]) (.markUb trivial (by decide))

theorem dmExecRow {m : Msg} {i : Nat} : Walks R (Dm.execRowC c cb m i) := by
  unfold Dm.execRowC
  refine .bind hR (.of hR (A := []) ?_) fun _ => .ite (fun _ => .bind hR (.of hR (A := []) ?_) fun _ =>
    .bind hR (.of hR (A := []) ?_) fun _ => .bind hR (.of hR (A := []) .zoneRead) fun _ => .bind hR (.of hR (A := []) .subZoneRead) fun _ =>
    .bind hR (.whenM hR fun h => absurd (Util.zoneIndex_next _ _ h.2.1) h.2.2) fun _ => ?_) fun _ => .pure hR _
  · unfold Dm.isRowEnabled
    exact .bind (.readIdx _ _ _) fun _ => .pure _
  · unfold Dm.readRow
    refine .bind ?_ fun _ => ?_
    · unfold Ps.readDmMultiple
      exact .ite (fun _ => .map (.of_eq fun _ => rfl)) fun _ => .pure _
    · split <;> exact .pure _
  · refine .ite (fun _ => ?_) fun _ => .pure _
    unfold Dm.readExtRow
    refine .bind ?_ fun _ => ?_
    · unfold Ps.readDmExtMultiple
      exact .ite (fun _ => .map (.of_eq fun _ => rfl)) fun _ => .pure _
    · split <;> exact .pure _
  · split
    · exact .action hR _ _ _
    · exact .pure hR _

theorem dmExecuteActions {m : Msg} : Walks R (Dm.executeActionsC c cb m) := by
  unfold Dm.executeActionsC
  exact .ite (fun _ => .forUp hR (fun _ => .dmExecRow hR) _) fun _ => .markUb hR

theorem ngExecRule {m : Msg} {buf : List U8} : Walks R (DmNg.execRuleC c cb buf m) := by
  unfold DmNg.execRuleC
  split
  · refine .ite (fun _ => .ite (fun _ => ?_) fun _ => .pure hR _) fun _ => .pure hR _
    split
    · exact .action hR _ _ _
    · exact .pure hR _
    · exact .markUb hR
  · exact .markUb hR

theorem ngNext {buf : List U8} : Walks R (DmNg.getNextRule c.toCfg buf) := .of hR (A := [.ngVars]) Foot.ngGetNextRule

theorem ngRulesLoop {m : Msg} (n : Nat) (buf : List U8) : Walks R (DmNg.rulesLoopC c cb m n buf) := by
  induction n generalizing buf with
  | zero => exact .markUb hR
  | succ n ih =>
    refine .bind hR (.ngExecRule hR) fun _ => .bind hR (.ngNext hR) fun r => ?_
    cases r with
    | none => exact .pure hR _
    | some b => exact ih b

theorem ngExecuteActions {m : Msg} : Walks R (DmNg.executeActionsC c cb m) := by
  unfold DmNg.executeActionsC
  refine .bind hR ?_ fun r => ?_
  · unfold DmNg.getFirstRule
    exact .bind hR (.of hR (A := []) (.readIdx _ _ _)) fun _ =>
      .bind hR (.of hR (A := [.ngVars]) (.one (a := .ngVars) (by decide) fun w => ⟨_, _, rfl⟩)) fun _ => .ngNext hR
  · cases r with
    | none => exact .pure hR _
    | some b => exact .ngRulesLoop hR _ _

theorem activeHeartbeat : Walks R (Core.activeHeartbeatC c cb) := by
  unfold Core.activeHeartbeatC
  refine .bind hR (.get hR) fun w => .bind hR (.of hR (A := []) (.timerRunning _)) fun _ => .whenM hR fun _ =>
    .bind hR (.ite (fun _ => ?_) fun _ => ?_) fun _ => .of hR (A := [.tm .heartbeat]) (.timerStart _ (by decide))
  · exact .bind hR (.of hR (A := [.customHb]) (.one (a := .customHb) (by decide) fun w => rfl)) fun _ => hR.call
  · refine .of hR (A := [.tx]) (.bind .zoneRead fun z => .bind .subZoneRead fun s w => ?_)
    refine .one (a := .tx) (by decide) ⟨⟨3, 20, 9, w.v.nick, c.hardCoded, 3, bytes8 [0, z, s]⟩, .inl rfl, ⟨rfl, show (3 : U8).toNat < 8 by decide, show (20 : U16).toNat < 512 by decide⟩, .inl ?_, rfl⟩
    exact Nat.le_of_ble_eq_true rfl

/-- What follows the event in a cycle. -/
theorem tail (r : Bool) : Walks R (do
    Core.activeHeartbeatC c cb
    let x ← Core.activeExtRead c
    Pure.pure (r || x)) :=
  .bind hR (.activeHeartbeat hR) fun _ => .bind hR (.of hR .activeExtRead (by decide)) fun _ => .pure hR _

end Walks

/-- The cycles of an active node: behind the handler of the event, which may come behind a callback itself, and all of it, if there is no handler. -/
theorem active_walk {c : Ctx} {cb : Callbacks} {R : W → W → Prop} (hR : Walk c cb R) {rx : Option Msg} {w : W} (ha : w.v.st = .active) :
    (∃ m w1, m.cls = 0 ∧ Spec.Takes c rx w m ∧ (c.protoNotify = false → w1 = (preProcess c rx w).2) ∧
      (w1 = (preProcess c rx w).2 ∨ w1 = (callback c cb (emit (.protoEvent m false) (preProcess c rx w).2).2).2) ∧
      R (Core.handleProtocolClassType c m w1).2 (Core.processC c cb rx w).2) ∨
    (c.protoNotify = true ∧ ∃ m, R (emit (.protoEvent m true) (preProcess c rx w).2).2 (Core.processC c cb rx w).2) ∨
    R (preProcess c rx w).2 (Core.processC c cb rx w).2 := by
  have hst : (preProcess c rx w).2.v.st = .active := (pre_same c rx w .st (by decide)).trans ha
  have hr : (preProcess c rx w).1 = (Transport.readMessage c rx w).1 := preProcess_rx rx w
  have ho : (preProcess c rx w).2.out = w.out := pre_out c rx w
  have e1 : (Core.processC c cb rx w).2 = (Core.stateActiveC c cb (preProcess c rx w).1 (preProcess c rx w).2).2 := by
    rw [processC_split]
    unfold Core.dispatchC
    simp only [M.bind_run, M.get_run, hst]
  rw [hr] at e1
  rw [e1]
  generalize (preProcess c rx w).2 = w1 at *
  have ends : ∀ {x : W}, R x (Core.activeEventOptC c cb (Transport.readMessage c rx w).1 w1).2 → R x (Core.stateActiveC c cb (Transport.readMessage c rx w).1 w1).2 :=
    fun h => hR.trans h (Walks.tail hR _ _)
  cases hm : (Transport.readMessage c rx w).1 with
  | none => rw [hm] at ends; exact .inr (.inr (ends (hR.refl _)))
  | some m =>
    rw [hm] at ends
    have ends' : ∀ {x : W}, R x (Core.activeEventC c cb m w1).2 → R x (Core.stateActiveC c cb (some m) w1).2 := ends
    have rest : Walks R (do whenM c.dm (Dm.executeActionsC c cb m); whenM c.dmNg (DmNg.executeActionsC c cb m)) :=
      .bind hR (.whenM hR fun _ => .dmExecuteActions hR) fun _ => .whenM hR fun _ => .ngExecuteActions hR
    have hand : ∀ w2, R (Core.handleProtocolClassType c m w2).2 (Core.handleProtocolClassTypeC c cb m w2).2 := fun w2 => by
      unfold Core.handleProtocolClassTypeC
      exact Walks.whenM hR (fun _ => hR.call) _
    unfold Core.activeEventC at ends'
    simp only [bind_run] at ends'
    by_cases hc : m.cls = Transport.CLASS_PROTOCOL
    · rw [if_pos hc] at ends'
      by_cases hpn : c.protoNotify = true
      · rw [if_pos hpn] at ends'
        simp only [bind_run, get_run] at ends'
        cases hh : c.protoHandled w1.out.length with
        | false =>
          refine .inl ⟨m, _, hc, ⟨ha, hm, fun _ => by rw [← ho]; exact hh⟩, fun h => absurd hpn (by rw [h]; decide), .inr rfl, ends' ?_⟩
          rw [hh]
          refine hR.trans ?_ (rest _)
          exact hand _
        | true =>
          refine .inr (.inl ⟨hpn, m, ends' ?_⟩)
          rw [hh]
          refine hR.trans ?_ (rest _)
          exact hR.call _
      · rw [if_neg hpn] at ends'
        exact .inl ⟨m, w1, hc, ⟨ha, hm, fun h => absurd h hpn⟩, fun _ => rfl, .inl rfl, ends' (hR.trans (hand _) (rest _))⟩
    · rw [if_neg hc] at ends'
      refine .inr (.inr (ends' (hR.trans ?_ (rest _))))
      exact Walks.bind hR (.of hR (A := [.event]) (.one (a := .event) (by decide) fun w => ⟨_, rfl⟩)) (fun _ => hR.call) _

end Vscp
