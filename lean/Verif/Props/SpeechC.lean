/-
Property theorems: a node sends nothing without a reason, also if its application calls the framework in its callbacks (C118).
-/
import Verif.Spec.SpeechC
import Verif.Props.Speech
import Verif.Lemmas.Callout

namespace Vscp.Speech
open M Spec Transport Safety Discovery

variable {c : Ctx} {cb : Callbacks} {rx : Option Msg} {w0 : W}

theorem _root_.Vscp.Spec.Reacting.mono {t e e' : List Out} {x : W} (h : Reacting t e x) (he : ∃ s, e' = e ++ s) : Reacting t e' x := by
  obtain ⟨t1, o, t2, h1, h2, h3⟩ := h
  obtain ⟨s, rfl⟩ := he
  exact ⟨t1, o, t2 ++ s, h1, h2, by rw [h3, List.append_assoc]⟩

theorem _root_.Vscp.Spec.ReasonC.mono {e e' : List Out} {f : Msg} (h : ReasonC c cb rx w0 e f) (he : ∃ s, e' = e ++ s) : ReasonC c cb rx w0 e' f := by
  cases h with
  | app x hx h => exact .app x (hx.mono he) h
  | log x hx h hf => exact .log x (hx.mono he) h hf
  | answer m h hm hc hf ht =>
    refine .answer m h hm (hc.imp id ?_) hf ht
    rintro ⟨h1, x, h2, h3⟩
    exact ⟨h1, x, h2.mono he, h3⟩
  | stream ha h hf ht => exact .stream ha h hf ht
  | heartbeat ha h hon hc ht hf =>
    refine .heartbeat ha h (hon.imp id ?_) hc ht hf
    rintro ⟨x, b, h1, h2⟩
    exact ⟨x, b, h1.mono he, h2⟩
  | other h r => exact .other h r

/-- What holds in a cycle of an active node which began in state `w0`: before the handler of the event (`s = 0`), before the heartbeat
(`s ≤ 1`) and behind it. -/
structure Mid (c : Ctx) (cb : Callbacks) (rx : Option Msg) (w0 : W) (s : Nat) (w : W) : Prop where
  tr : ∃ t, w.out = w0.out ++ t ∧ ∀ f ok, .tx f ok ∈ t → ReasonC c cb rx w0 w.out f
  ext : w.v.ext = w0.v.ext ∨ w.v.ext.count = 0 ∨ ∀ f : Msg, f.cls = 0 → f.typ = 39 → ReasonC c cb rx w0 w.out f
  hb : w.v.hbOn = w0.v.hbOn ∨ ∃ x b, Reacting w0.out w.out x ∧ .enableHeartbeat b ∈ cb x
  tm : s ≤ 1 → w.tm.ok .heartbeat = w0.tm.ok .heartbeat ∧ w.tm.rem .heartbeat = w0.tm.rem .heartbeat
  nick : s = 0 → w.v.nick = w0.v.nick ∨ ∃ x, Reacting w0.out w.out x ∧ (.startNodeSegmentInit ∈ cb x ∨ .restore ∈ cb x)

theorem Mid.later {s s' : Nat} {w : W} (h : Mid c cb rx w0 s w) (hs : s ≤ s') : Mid c cb rx w0 s' w :=
  ⟨h.tr, h.ext, h.hb, fun h1 => h.tm (by omega), fun h1 => h.nick (by omega)⟩

/-- One more piece of the cycle. -/
theorem Mid.next {s s' : Nat} {w w' : W} (h : Mid c cb rx w0 s w) {t : List Out} (ht : w'.out = w.out ++ t)
    (hf : ∀ f ok, .tx f ok ∈ t → ReasonC c cb rx w0 w'.out f)
    (hext : w'.v.ext = w.v.ext ∨ w'.v.ext.count = 0 ∨ ∀ f : Msg, f.cls = 0 → f.typ = 39 → ReasonC c cb rx w0 w'.out f)
    (hhb : w'.v.hbOn = w.v.hbOn ∨ ∃ x b, Reacting w0.out w'.out x ∧ .enableHeartbeat b ∈ cb x)
    (htm : s' ≤ 1 → s ≤ 1 ∧ w'.tm.ok .heartbeat = w.tm.ok .heartbeat ∧ w'.tm.rem .heartbeat = w.tm.rem .heartbeat)
    (hn : s' = 0 → s = 0 ∧ (w'.v.nick = w.v.nick ∨ ∃ x, Reacting w0.out w'.out x ∧ (.startNodeSegmentInit ∈ cb x ∨ .restore ∈ cb x))) :
    Mid c cb rx w0 s' w' := by
  have he : ∃ s, w'.out = w.out ++ s := ⟨t, ht⟩
  refine ⟨?_, ?_, ?_, ?_, ?_⟩
  · obtain ⟨t0, h1, h2⟩ := h.tr
    refine ⟨t0 ++ t, by rw [ht, h1, List.append_assoc], fun f ok hm => ?_⟩
    rcases List.mem_append.mp hm with hm | hm
    · exact (h2 f ok hm).mono he
    · exact hf f ok hm
  · rcases hext with h1 | h1 | h1
    · rw [h1]
      rcases h.ext with h2 | h2 | h2
      · exact .inl h2
      · exact .inr (.inl h2)
      · exact .inr (.inr fun f g1 g2 => (h2 f g1 g2).mono he)
    · exact .inr (.inl h1)
    · exact .inr (.inr h1)
  · rcases hhb with h1 | h1
    · rw [h1]
      rcases h.hb with h2 | ⟨x, b, h2, h3⟩
      · exact .inl h2
      · exact .inr ⟨x, b, h2.mono he, h3⟩
    · exact .inr h1
  · intro h1
    obtain ⟨g1, g2, g3⟩ := htm h1
    obtain ⟨g4, g5⟩ := h.tm g1
    exact ⟨g2.trans g4, g3.trans g5⟩
  · intro h1
    obtain ⟨g1, g2⟩ := hn h1
    rcases g2 with g2 | g2
    · rw [g2]
      rcases h.nick g1 with g3 | ⟨x, g3, g4⟩
      · exact .inl g3
      · exact .inr ⟨x, g3.mono he, g4⟩
    · exact .inr g2

/-- Steps which do not concern any of it. -/
def Act.calm (a : Act) : Bool := a.silent && !a.touches .ext && !a.touches .hb && !a.touches (.tm .heartbeat) && !a.touches .ok && !a.touches .nick

theorem Mid.calm {s : Nat} {w w' : W} (h : Mid c cb rx w0 s w) {A : List Act} (hs : Steps c True A w w') (hA : A.all Act.calm = true) : Mid c cb rx w0 s w' := by
  have hA' : ∀ a ∈ A, a.silent = true ∧ a.touches .ext = false ∧ a.touches .hb = false ∧ a.touches (.tm .heartbeat) = false ∧ a.touches .ok = false ∧ a.touches .nick = false := by
    intro a ha
    have := List.all_eq_true.mp hA a ha
    simp only [Act.calm, Bool.and_eq_true, Bool.not_eq_true'] at this
    simp [this]
  obtain ⟨t, h1, h2⟩ := hs.outs
  have same : ∀ k : Comp, (∀ a ∈ A, a.touches k = false) → k.same w w' := fun k hk => hs.same k (by simpa using hk)
  refine h.next h1 (fun f ok hm => ?_) (.inl ?_) (.inl ?_) (fun h => ⟨h, ?_, ?_⟩) fun h => ⟨h, .inl ?_⟩
  · obtain ⟨a, h3, h4⟩ := h2 _ hm
    exact (silent_emits (hA' a h3).1 h4).elim
  · exact same .ext fun a ha => (hA' a ha).2.1
  · exact same .hb fun a ha => (hA' a ha).2.2.1
  · exact congrFun (same .ok fun a ha => (hA' a ha).2.2.2.2.1) _
  · exact same (.tm .heartbeat) fun a ha => (hA' a ha).2.2.2.1
  · exact same .nick fun a ha => (hA' a ha).2.2.2.2.2

/-- The application makes one call in a callback. -/
theorem Mid.op {s : Nat} {w x : W} (h : Mid c cb rx w0 s w) (hx : Reacting w0.out w.out x) {o : Op} (ho : o ∈ cb x) (hi : o.inCallback) :
    Mid c cb rx w0 s (stepOp c o w).2 ∧ Reacting w0.out (stepOp c o w).2.out x := by
  have hp : ∀ rx, o ≠ .process rx := by rintro rx rfl; exact hi
  have hst := op_steps c o hp w
  obtain ⟨t, h1, h2⟩ := hst.outs
  have hx' : Reacting w0.out (stepOp c o w).2.out x := hx.mono ⟨t, h1⟩
  refine ⟨?_, hx'⟩
  have told : ∀ f ok, .tx f ok ∈ t → Told c o w f := fun f ok hm => C118_calls h1 hm
  have fr : ∀ f ok, .tx f ok ∈ t → ReasonC c cb rx w0 (stepOp c o w).2.out f := by
    intro f ok hm
    have := told f ok hm
    cases o with
    | init | process | tick => exact hi.elim
    | sendEvent m => rw [show f = m from this]; exact .app x hx' ho
    | log id level msg => exact .log x hx' (.inl ⟨_, _, _, ho⟩) this
    | logUInt32 id level v => exact .log x hx' (.inr ⟨_, _, _, ho⟩) this
    | _ => exact this.elim
  refine h.next h1 fr ?_ ?_ (fun h => ⟨h, ?_⟩) fun h => ⟨h, ?_⟩
  · rcases ext_steps hst (by cases o <;> first | exact hi.elim | rfl) with h3 | h3
    · exact .inl h3
    · exact .inr (.inl h3)
  · by_cases hh : ∃ b, o = .enableHeartbeat b
    · obtain ⟨b, rfl⟩ := hh
      exact .inr ⟨x, b, hx', ho⟩
    · refine .inl (hst.same .hb ?_)
      cases o with
      | init | process | tick => exact hi.elim
      | enableHeartbeat b => exact absurd ⟨b, rfl⟩ hh
      | _ => rfl
  · refine ⟨congrFun (hst.same .ok ?_) _, hst.same (.tm .heartbeat) ?_⟩ <;> (cases o <;> first | exact hi.elim | rfl)
  · by_cases hh : o = .startNodeSegmentInit ∨ o = .restore
    · refine .inr ⟨x, hx', ?_⟩
      rcases hh with rfl | rfl
      · exact .inl ho
      · exact .inr ho
    · refine .inl (hst.same .nick ?_)
      cases o with
      | init | process | tick => exact hi.elim
      | startNodeSegmentInit => exact absurd (.inl rfl) hh
      | restore => exact absurd (.inr rfl) hh
      | _ => rfl

/-- The application gets control. -/
theorem Mid.callback (hcb : CbOk cb) {s : Nat} {w : W} (h : Mid c cb rx w0 s w) {t : List Out} {o : Out} (ht : w.out = t ++ [o]) (hl : w0.out.length ≤ t.length)
    (ho : reacts o) : Mid c cb rx w0 s (callback c cb w).2 := by
  have hx : Reacting w0.out w.out w := by
    obtain ⟨t0, h1, -⟩ := h.tr
    refine ⟨t.drop w0.out.length, o, [], ?_, ho, by simp⟩
    rw [h1] at ht
    have hpre : w0.out <+: t := List.prefix_of_prefix_length_le ⟨t0, ht⟩ (List.prefix_append ..) hl
    obtain ⟨u, rfl⟩ := hpre
    rw [List.drop_left, h1, ht]
  have key : ∀ (l : List Op), (∀ o ∈ l, o ∈ cb w) → ∀ w1, Mid c cb rx w0 s w1 → Reacting w0.out w1.out w → Mid c cb rx w0 s (runOps c l w1) := by
    intro l
    induction l with
    | nil => exact fun _ w1 h1 _ => h1
    | cons o l ih =>
      intro hl w1 h1 h2
      obtain ⟨h3, h4⟩ := h1.op h2 (hl o (by simp)) (hcb _ o (hl o (by simp)))
      exact ih (fun o ho => hl o (by simp [ho])) _ h3 h4
  exact key (cb w) (fun _ h => h) w h hx

/-- A piece of the cycle keeps it. -/
def Keep (c : Ctx) (cb : Callbacks) (rx : Option Msg) (w0 : W) (s : Nat) {α : Type} (m : M α) : Prop := ∀ w, Mid c cb rx w0 s w → Mid c cb rx w0 s (m w).2

namespace Keep
variable {s : Nat} {α β : Type}

theorem pure (a : α) : Keep c cb rx w0 s (pure a : M α) := fun _ h => h
theorem get : Keep c cb rx w0 s M.get := fun _ h => h
theorem bind {m : M α} {f : α → M β} (h : Keep c cb rx w0 s m) (h' : ∀ a, Keep c cb rx w0 s (f a)) : Keep c cb rx w0 s (m >>= f) :=
  fun w hw => h' _ _ (h w hw)
theorem ite {p : Prop} [Decidable p] {m m' : M α} (h : p → Keep c cb rx w0 s m) (h' : ¬p → Keep c cb rx w0 s m') :
    Keep c cb rx w0 s (if p then m else m') := by
  split
  · exact h ‹_›
  · exact h' ‹_›
theorem whenM {p : Prop} [Decidable p] {m : M Unit} (h : p → Keep c cb rx w0 s m) : Keep c cb rx w0 s (whenM p m) :=
  .ite h fun _ => .pure _
theorem forUp {f : Nat → M Unit} (h : ∀ i, Keep c cb rx w0 s (f i)) (n : Nat) : Keep c cb rx w0 s (forUp f n) := by
  induction n with
  | zero => exact .pure _
  | succ n ih => exact .bind ih fun _ => h _
theorem of {A : List Act} {m : M α} (h : Foot c True A m) (hA : A.all Act.calm = true := by decide) : Keep c cb rx w0 s m :=
  fun w hw => hw.calm (h w) hA

/-- A callback which is recorded, and the reaction of the application. -/
theorem call (hcb : CbOk cb) {o : Out} (ho : reacts o) : Keep c cb rx w0 s (do emit o; Vscp.callback c cb) := by
  intro w hw
  have h1 : Mid c cb rx w0 s (emit o w).2 := by
    refine hw.next (t := [o]) rfl (fun f ok hm => ?_) (.inl rfl) (.inl rfl) (fun h => ⟨h, rfl, rfl⟩) fun h => ⟨h, .inl rfl⟩
    simp only [List.mem_singleton] at hm
    subst hm; exact ho.elim
  refine h1.callback hcb (t := w.out) (o := o) rfl ?_ ho
  obtain ⟨t0, h2, -⟩ := hw.tr
  rw [h2]; simp

variable (hcb : CbOk cb)
include hcb

theorem dmExecRow {m : Msg} {i : Nat} : Keep c cb rx w0 s (Dm.execRowC c cb m i) := by
  unfold Dm.execRowC
  refine .bind (.of (A := []) ?_) fun _ => .ite (fun _ => .bind (.of (A := []) ?_) fun _ =>
    .bind (.of (A := []) ?_) fun _ => .bind (.of (A := []) .zoneRead) fun _ => .bind (.of (A := []) .subZoneRead) fun _ =>
    .bind (.whenM fun h => absurd (Util.zoneIndex_next _ _ h.2.1) h.2.2) fun _ => ?_) fun _ => .pure _
  · unfold Dm.isRowEnabled
    exact .bind (.readIdx _ _ _) fun _ => .pure _
  · unfold Dm.readRow
    refine .bind ?_ fun _ => ?_
    · unfold Ps.readDmMultiple
      exact .ite (fun _ => .map (.of_eq fun _ => rfl)) fun _ => .pure _
    · split <;> exact .pure _
  · refine .ite (fun _ => ?_) fun _ => .pure _
    unfold Dm.readExtRow
    refine .bind ?_ fun _ => ?_
    · unfold Ps.readDmExtMultiple
      exact .ite (fun _ => .map (.of_eq fun _ => rfl)) fun _ => .pure _
    · split <;> exact .pure _
  · split
    · exact .call hcb trivial
    · exact .pure _

omit hcb in
theorem markUb : Keep c cb rx w0 s Vscp.markUb := .of (A := [.ub]) (.markUb trivial (by decide))

theorem dmExecuteActions {m : Msg} : Keep c cb rx w0 s (Dm.executeActionsC c cb m) := by
  unfold Dm.executeActionsC
  exact .ite (fun _ => .forUp (fun _ => .dmExecRow hcb) _) fun _ => .markUb

theorem ngExecRule {m : Msg} {buf : List U8} : Keep c cb rx w0 s (DmNg.execRuleC c cb buf m) := by
  unfold DmNg.execRuleC
  split
  · refine .ite (fun _ => .ite (fun _ => ?_) fun _ => .pure _) fun _ => .pure _
    split
    · exact .call hcb trivial
    · exact .pure _
    · exact .markUb
  · exact .markUb

omit hcb in
theorem ngNext {buf : List U8} : Keep c cb rx w0 s (DmNg.getNextRule c.toCfg buf) := .of (A := [.ngVars]) Foot.ngGetNextRule

theorem ngRulesLoop {m : Msg} (n : Nat) (buf : List U8) : Keep c cb rx w0 s (DmNg.rulesLoopC c cb m n buf) := by
  induction n generalizing buf with
  | zero => exact .markUb
  | succ n ih =>
    refine .bind (.ngExecRule hcb) fun _ => .bind .ngNext fun r => ?_
    cases r with
    | none => exact .pure _
    | some b => exact ih b

theorem ngExecuteActions {m : Msg} : Keep c cb rx w0 s (DmNg.executeActionsC c cb m) := by
  unfold DmNg.executeActionsC
  refine .bind ?_ fun r => ?_
  · unfold DmNg.getFirstRule
    exact .bind (.of (A := []) (.readIdx _ _ _)) fun _ =>
      .bind (.of (A := [.ngVars]) (.one (a := .ngVars) (by decide) fun w => ⟨_, _, rfl⟩)) fun _ => .ngNext
  · cases r with
    | none => exact .pure _
    | some b => exact .ngRulesLoop hcb _ _

end Keep

/-- The heartbeat. -/
theorem Mid.heartbeat (hcb : CbOk cb) (ha : w0.v.st = .active) {w : W} (h : Mid c cb rx w0 1 w) : Mid c cb rx w0 2 (Core.activeHeartbeatC c cb w).2 := by
  unfold Core.activeHeartbeatC
  rw [bind_run, get_run, bind_run, timerRunning_run]
  dsimp only
  rw [whenM_run]
  split
  · rename_i hd
    rw [bind_run]
    have start : ∀ {w : W}, Mid c cb rx w0 1 w → Mid c cb rx w0 2 (timerStart .heartbeat c.hbPeriod w).2 := by
      intro w h
      have hs := Foot.timerStart (c := c) (bad := True) (A := [.tm .heartbeat]) (t := .heartbeat) c.hbPeriod (by decide) w
      obtain ⟨t, h1, h2⟩ := hs.outs
      refine h.next h1 (fun f ok hm => ?_) (.inl (hs.same .ext rfl)) (.inl (hs.same .hb rfl)) (fun h => absurd h (by decide)) fun h => absurd h (by decide)
      obtain ⟨a, h3, h4⟩ := h2 _ hm
      simp only [List.mem_singleton] at h3
      subst h3
      exact (silent_emits (a := .tm .heartbeat) rfl h4).elim
    refine start ?_
    by_cases hc : c.customHb = true
    · rw [if_pos hc]
      exact Keep.call hcb (o := .customHeartbeat) trivial w h
    · rw [if_neg hc]
      have hr : ∀ f : Msg, f.cls = 20 ∧ f.typ = 9 → ∀ e, (∃ t, e = w.out ++ t) → ReasonC c cb rx w0 e f := by
        intro f hf e he
        refine .heartbeat ha hd.1 ?_ (by simpa using hc) ?_ hf
        · rcases h.hb with h1 | ⟨x, b, h1, h2⟩
          · exact .inl (by rw [← h1]; exact hd.2.1)
          · exact .inr ⟨x, b, h1.mono he, h2⟩
        · obtain ⟨h1, h2⟩ := h.tm (Nat.le_refl _)
          rw [← h1, ← h2]
          intro h3
          have := hd.2.2
          simpa [h3] using this
      have h1 : ∀ z s : U8, Mid c cb rx w0 1 (writeMessage c ⟨3, 20, 9, w.v.nick, c.hardCoded, 3, bytes8 [0, z, s]⟩ w).2 := by
        intro z s
        obtain ⟨tp, ub, t, h1, h2⟩ := writeMessage_frame c ⟨3, 20, 9, w.v.nick, c.hardCoded, 3, bytes8 [0, z, s]⟩ w
        rw [h1]
        refine h.next (t := t) rfl (fun f ok hm => ?_) (.inl rfl) (.inl rfl) (fun h => ⟨h, rfl, rfl⟩) fun h => absurd h (by decide)
        rcases h2 with rfl | ⟨rfl, -⟩
        · simp only [List.mem_singleton] at hm
          cases hm
          exact hr _ ⟨rfl, rfl⟩ _ ⟨_, rfl⟩
        · cases hm
      have hz : ∀ w, (DevData.getZone c w).2 = w := fun w => by unfold DevData.getZone Ps.readZone; simp only [ite_run]; split <;> rfl
      have hsz : ∀ w, (DevData.getSubZone c w).2 = w := fun w => by unfold DevData.getSubZone Ps.readSubZone; simp only [ite_run]; split <;> rfl
      rw [bind_run, bind_run, bind_run, bind_run, hz, hsz]
      unfold Core.prepareTxMessage Core.sendEvent
      simp only [bind_run, get_run, pure_run]
      exact h1 _ _
  · exact h.later (by decide)

/-- The next frame of an extended page read. -/
theorem Mid.extRead (ha : w0.v.st = .active) {w : W} (h : Mid c cb rx w0 2 w) : ∃ t, (Core.activeExtRead c w).2.out = w0.out ++ t ∧
    ∀ f ok, .tx f ok ∈ t → ReasonC c cb rx w0 (Core.activeExtRead c w).2.out f := by
  by_cases hc : 0 < w.v.ext.count.toNat
  · have e : (Core.activeExtRead c w).2 = (Core.extendedPageReadRegister c w).2 := by
      unfold Core.activeExtRead
      rw [bind_run, get_run]
      simp only [ite_run]
      rw [if_pos hc]
      rfl
    rw [e]
    obtain ⟨t2, vs, txe, hr, hf2, -, -⟩ := extRead_run c w hc
    rw [hr]
    obtain ⟨t0, h1, h2⟩ := h.tr
    refine ⟨t0 ++ (t2 ++ [.tx (extFrame c w.v.nick w.v.ext vs) (c.txOk (w.out ++ t2).length)]), by dsimp only; rw [h1]; simp only [List.append_assoc], ?_⟩
    intro f ok hm
    have he : ∃ s, w.out ++ (t2 ++ [.tx (extFrame c w.v.nick w.v.ext vs) (c.txOk (w.out ++ t2).length)]) = w.out ++ s := ⟨_, rfl⟩
    dsimp only
    rcases List.mem_append.mp hm with hm | hm
    · have := (h2 f ok hm).mono he
      simpa only [List.append_assoc] using this
    rcases List.mem_append.mp hm with hm | hm
    · have := frame_mem hm
      rw [hf2] at this; cases this
    · simp only [List.mem_singleton] at hm
      cases hm
      rcases h.ext with h3 | h3 | h3
      · exact .stream ha (by rw [← h3]; exact hc) rfl rfl
      · rw [h3] at hc; exact absurd hc (by decide)
      · have := (h3 (extFrame c w.v.nick w.v.ext vs) rfl rfl).mono he
        simpa only [List.append_assoc] using this
  · have e : (Core.activeExtRead c w).2 = w := by
      unfold Core.activeExtRead
      rw [bind_run, get_run]
      simp only [ite_run]
      rw [if_neg hc]
      rfl
    rw [e]
    exact h.tr

/-- The handler of an event, and the callback with the time. -/
theorem Mid.handler (hcb : CbOk cb) {m : Msg} (htk : Takes c rx w0 m) (hm : m.cls = 0) {s : Nat} (hs : s = 0) {w : W} (h : Mid c cb rx w0 s w) (hn : c.protoNotify = false → w.v.nick = w0.v.nick) :
    Mid c cb rx w0 1 (Core.handleProtocolClassTypeC c cb m w).2 := by
  subst hs
  have hst : Steps c True (typeActs m.typ.toNat) w (Core.handleProtocolClassType c m w).2 := Foot.handlerType w
  obtain ⟨t, ht, ho⟩ := handler_frames (c := c) (m := m) w
  have h1 : Mid c cb rx w0 1 (Core.handleProtocolClassType c m w).2 := by
    by_cases hh : Core.handleProtocolClassType c m w = ((), w)
    · rw [hh]; exact h.later (by decide)
    · have conc : ∀ {r : U8}, (m.typ, r) ∈ answers → ∀ e, (∃ t, e = w.out ++ t) →
          concerns m w0.v.nick ∨ (c.protoNotify = true ∧ ∃ x, Reacting w0.out e x ∧ (.startNodeSegmentInit ∈ cb x ∨ .restore ∈ cb x)) := by
        intro r hr e he
        have hc : concerns m w.v.nick := by
          rcases answers_addressed hr with h2 | h2
          · by_cases hc : m.size = 1 ∧ w.v.nick = m.data[0]
            · exact .inl (by rw [payload_get' (by rw [hc.1]; decide) (by decide), ← hc.2])
            · refine absurd ?_ hh
              rw [handler2 h2, Core.handleNewNodeOnline, bind_run, get_run, whenM_run, if_neg hc]
          · by_cases hc : concerns m w.v.nick
            · exact hc
            · exact absurd (States.C29_handler c m w h2 hc) hh
        cases hp : c.protoNotify with
        | false => rw [hn hp] at hc; exact .inl hc
        | true =>
          rcases h.nick rfl with h3 | ⟨x, h3, h4⟩
          · rw [h3] at hc; exact .inl hc
          · exact .inr ⟨rfl, x, h3.mono he, h4⟩
      refine h.next ht (fun f ok hf => ?_) ?_ (.inl (hst.same .hb ?_)) (fun _ => ⟨by decide, congrFun (hst.same .ok ?_) _, hst.same (.tm .heartbeat) ?_⟩)
        fun h => absurd h (by decide)
      · obtain ⟨g1, g2⟩ := ho _ hf f ok rfl
        have hr := responses_answers _ _ g2
        exact .answer m htk hm (conc hr _ ⟨_, ht⟩) g1 hr
      · by_cases h37 : m.typ = 37
        · refine .inr (.inr fun f g1 g2 => ?_)
          have hr : (m.typ, (39 : U8)) ∈ answers := by rw [h37]; decide
          exact .answer m htk hm (conc hr _ ⟨_, ht⟩) g1 (by rw [g2]; exact hr)
        · rcases handler_ext (c := c) h37 w with g | g
          · exact .inl g
          · exact .inr (.inl g)
      all_goals
        generalize m.typ.toNat = k
        unfold typeActs
        split <;> rfl
  unfold Core.handleProtocolClassTypeC
  rw [bind_run, whenM_run]
  split
  · rename_i hk
    have e1 : ∃ w1 : W, (Core.handleProtocolClassType c m w).2.out = w1.out ++ [.timeUpdate (Core.epochOf m)] ∧ w0.out.length ≤ w1.out.length := by
      rw [handler1 hk.1, whenM_run, if_pos hk.2.1]
      unfold Core.handleHeartbeat
      rw [whenM_run, if_pos (show 0 < m.size.toNat by omega), bind_run, bind_run, whenM_run, if_pos hk.2.2.1, bind_run, whenM_run, if_pos hk.2.2.2]
      refine ⟨_, rfl, ?_⟩
      obtain ⟨t0, g1, -⟩ := h.tr
      have hf : Foot c True [.seg, .st .init, .ist, .nick] (do
          let crc ← Ps.readSegCrc c
          Vscp.whenM (crc ≠ m.data[0]) (do
            Ps.writeSegCrc c m.data[0]
            let w ← M.get
            Vscp.whenM (w.v.probe ≠ Core.MASTER) (Core.changeToStateInit c true))) :=
        .bind (.psRead8 _) fun _ => .whenM fun _ => .bind (.one (a := .seg) (by decide) fun w => ⟨_, rfl⟩) fun _ => .bind .get fun _ => .whenM fun _ =>
          .changeToStateInit (by decide)
      obtain ⟨t1, g2, -⟩ := (hf w).outs
      have : w0.out.length ≤ ((do
          let crc ← Ps.readSegCrc c
          Vscp.whenM (crc ≠ m.data[0]) (do
            Ps.writeSegCrc c m.data[0]
            let w ← M.get
            Vscp.whenM (w.v.probe ≠ Core.MASTER) (Core.changeToStateInit c true)) : M Unit) w).2.out.length := by
        rw [g2, g1]; simp only [List.length_append]; omega
      exact this
    obtain ⟨w1, e1, e2⟩ := e1
    exact h1.callback hcb e1 e2 trivial
  · exact h1

/-- A cycle of an active node. -/
theorem active_reasonC (hcb : CbOk cb) (ha : w0.v.st = .active) : ∃ t, (Core.processC c cb rx w0).2.out = w0.out ++ t ∧
    ∀ f ok, .tx f ok ∈ t → ReasonC c cb rx w0 (Core.processC c cb rx w0).2.out f := by
  have hp : Mid c cb rx w0 0 (preProcess c rx w0).2 := by
    refine ⟨⟨[], by rw [pre_out]; simp, by simp⟩, .inl (pre_same c rx w0 .ext (by decide)), .inl (pre_same c rx w0 .hb (by decide)),
      fun _ => ⟨congrFun (pre_same c rx w0 .ok (by decide)) _, pre_same c rx w0 (.tm .heartbeat) (by decide)⟩, fun _ => .inl (pre_same c rx w0 .nick (by decide))⟩
  have ho : (preProcess c rx w0).2.out = w0.out := pre_out c rx w0
  have hn : (preProcess c rx w0).2.v.nick = w0.v.nick := pre_same c rx w0 .nick (by decide)
  have hst : (preProcess c rx w0).2.v.st = .active := (pre_same c rx w0 .st (by decide)).trans ha
  have hr : (preProcess c rx w0).1 = (readMessage c rx w0).1 := preProcess_rx rx w0
  have e1 : (Core.processC c cb rx w0).2 = (Core.stateActiveC c cb (preProcess c rx w0).1 (preProcess c rx w0).2).2 := by
    rw [processC_split]
    unfold Core.dispatchC
    simp only [M.bind_run, M.get_run, hst]
  generalize (preProcess c rx w0).2 = w1 at *
  rw [hr] at e1
  have h1 : Mid c cb rx w0 1 (Core.activeEventOptC c cb (readMessage c rx w0).1 w1).2 := by
    cases hm : (readMessage c rx w0).1 with
    | none => exact hp.later (by decide)
    | some m =>
      show Mid c cb rx w0 1 (Core.activeEventC c cb m w1).2
      unfold Core.activeEventC
      have rest : Keep c cb rx w0 1 (do whenM c.dm (Dm.executeActionsC c cb m); whenM c.dmNg (DmNg.executeActionsC c cb m)) :=
        .bind (.whenM fun _ => .dmExecuteActions hcb) fun _ => .whenM fun _ => .ngExecuteActions hcb
      rw [bind_run]
      refine rest _ ?_
      by_cases hc : m.cls = Transport.CLASS_PROTOCOL
      · rw [if_pos hc]
        by_cases hpn : c.protoNotify = true
        · rw [if_pos hpn, bind_run, get_run, bind_run, bind_run]
          dsimp only
          have h2 : Mid c cb rx w0 0 (callback c cb (emit (.protoEvent m (c.protoHandled w1.out.length)) w1).2).2 :=
            Keep.call hcb (o := .protoEvent m (c.protoHandled w1.out.length)) trivial w1 hp
          rw [whenM_run]
          split
          · rename_i hh
            rw [ho] at hh
            exact h2.handler hcb ⟨ha, hm, fun _ => hh⟩ hc rfl fun h => absurd hpn (by rw [h]; decide)
          · exact h2.later (by decide)
        · rw [if_neg hpn]
          exact hp.handler hcb ⟨ha, hm, fun h => absurd h hpn⟩ hc rfl fun _ => hn
      · rw [if_neg hc]
        exact (Keep.call hcb (o := .event m) trivial w1 hp).later (by decide)
  have h2 := h1.heartbeat hcb ha
  obtain ⟨t', g1, g2⟩ := h2.extRead ha
  have e2 : (Core.processC c cb rx w0).2 = (Core.activeExtRead c (Core.activeHeartbeatC c cb (Core.activeEventOptC c cb (readMessage c rx w0).1 w1).2).2).2 := by
    rw [e1]; rfl
  rw [e2]
  exact ⟨t', g1, g2⟩

/-- A node which is not active has no callbacks. -/
theorem inactive_processC (h : w0.v.st ≠ .active) : (Core.processC c cb rx w0).2 = (Core.process c rx w0).2 := by
  have hst : (preProcess c rx w0).2.v.st ≠ .active := fun e => h ((pre_same c rx w0 .st (by decide)).symm.trans e)
  rw [processC_split, process_split]
  generalize (preProcess c rx w0) = p at *
  dsimp only
  unfold Core.dispatchC
  rw [bind_run, get_run]
  cases hs : p.2.v.st <;> first | exact absurd hs hst | rfl

/-- C118: the same with an application which calls the framework in its callbacks: every event which a node hands over to its adapter in a call has
a reason, which is one of those of `C118_cycle`, or the application sends it in a callback of this cycle. -/
theorem C118_callbacks (hcb : CbOk cb) {op : Op} {w : W} {t : List Out} {f : Msg} {ok : Bool} (ht : (stepOpC c cb op w).2.out = w.out ++ t)
    (hf : .tx f ok ∈ t) : ToldC c cb op w f := by
  cases op with
  | process rx =>
    show ReasonC c cb rx w (Core.processC c cb rx w).2.out f
    by_cases ha : w.v.st = .active
    · obtain ⟨t', h1, h2⟩ := active_reasonC (c := c) (rx := rx) hcb ha
      have : t = t' := List.append_cancel_left (ht.symm.trans h1)
      subst this
      exact h2 f ok hf
    · have e : (stepOpC c cb (.process rx) w).2 = (stepOp c (.process rx) w).2 := inactive_processC ha
      rw [e] at ht
      exact .other ha (C118_calls ht hf)
  | _ => exact C118_calls ht hf

theorem grows_callbacks (hcb : CbOk cb) (op : Op) (w : W) : ∃ t, (stepOpC c cb op w).2.out = w.out ++ t := by
  cases op with
  | process rx =>
    by_cases ha : w.v.st = .active
    · obtain ⟨t, h, -⟩ := active_reasonC (c := c) (rx := rx) hcb ha
      exact ⟨t, h⟩
    · have e : (stepOpC c cb (.process rx) w).2 = (stepOp c (.process rx) w).2 := inactive_processC ha
      rw [e]
      exact op_grows c _ w
  | _ => exact op_grows c _ w

theorem historyC (hcb : CbOk cb) {f : Msg} {ok : Bool} : ∀ (ops : List Op) (w : W), .tx f ok ∈ (runOpsC c cb ops w).out →
    .tx f ok ∈ w.out ∨ ∃ ops1 op ops2, ops = ops1 ++ op :: ops2 ∧ ToldC c cb op (runOpsC c cb ops1 w) f
  | [], w, h => .inl h
  | op :: ops, w, h => by
    rcases historyC hcb ops _ h with h1 | ⟨ops1, op', ops2, h1, h2⟩
    · obtain ⟨t, ht⟩ := grows_callbacks (c := c) hcb op w
      rw [ht] at h1
      rcases List.mem_append.mp h1 with h1 | h1
      · exact .inl h1
      · exact .inr ⟨[], op, ops, rfl, C118_callbacks hcb ht h1⟩
    · exact .inr ⟨op :: ops1, op', ops2, by rw [h1]; rfl, h2⟩

/-- C118: every event which a node hands over to its adapter, in any history of calls behind power up, in and outside of callbacks, was asked for at
that point of the history. -/
theorem C118_callbacks_history (hcb : CbOk cb) {ps : Nat → U8} {ops : List Op} {f : Msg} {ok : Bool} (h : .tx f ok ∈ (runOpsC c cb ops (powerUp ps)).out) :
    ∃ ops1 op ops2, ops = ops1 ++ op :: ops2 ∧ ToldC c cb op (runOpsC c cb ops1 (powerUp ps)) f := by
  rcases historyC hcb ops _ h with h | h
  · simp [powerUp] at h
  · exact h

end Vscp.Speech
