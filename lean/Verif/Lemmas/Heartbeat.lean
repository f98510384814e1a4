/-
The heartbeat of the node: when it is sent, and its timer.
-/
import Verif.Lemmas.Discovery
import Verif.Spec.Time

namespace Vscp
open M Spec Transport

/-- The parts of a cycle of an active node. -/
theorem active_parts {c : Ctx} {rx : Option Msg} {w : W} (ha : w.v.st = .active) : (Core.process c rx w).2 =
    (Core.activeExtRead c (Core.activeHeartbeat c (Core.activeEventOpt c (readMessage c rx w).1 (preProcess c rx w).2).2).2).2 := by
  have hst := pre_same c rx w .st (by decide)
  simp only [Comp.same] at hst
  rw [process_split, preProcess_rx]
  generalize (preProcess c rx w).2 = w1 at *
  unfold Core.dispatch
  rw [bind_run, get_run]
  dsimp only
  simp only [hst, ha]
  rfl

/-! ### Frames which are no heartbeat -/

/-- A call which is no heartbeat. -/
def NoBeat (o : Out) : Prop := isHeartbeat o = false

section
variable {α : Type} {c : Ctx}

/-- The step makes no call which could be a heartbeat. -/
def Act.beatless : Act → Bool
  | .tx | .userTx _ | .customHb => false
  | _ => true

theorem Calls.beatless {A : List Act} {m : M α} (hf : Foot c True A m) (h : A.all Act.beatless = true) : Calls NoBeat m := by
  refine .of_foot hf fun a ha o ho => ?_
  have hs := List.all_eq_true.mp h a ha
  unfold NoBeat
  cases o with
  | customHeartbeat => cases a <;> simp [Act.beatless] at hs <;> simp [Act.emits] at ho
  | tx m ok => cases a <;> simp [Act.beatless] at hs <;> simp [Act.emits] at ho
  | _ => rfl

/-- Frames of the protocol class are no heartbeats. -/
theorem Calls.resp {T : List U8} {A : List Act} {m : M α} (h : Calls (Resp T) m) (hf : Foot c True A m) (hc : Act.customHb ∉ A) :
    Calls NoBeat m := by
  intro w
  obtain ⟨t, ht, ho⟩ := h w
  obtain ⟨t', ht', ho'⟩ := (hf w).outs
  have e : t' = t := List.append_cancel_left (ht'.symm.trans ht)
  subst e
  refine ⟨t', ht, fun o hm => ?_⟩
  unfold NoBeat
  cases o with
  | customHeartbeat =>
    obtain ⟨a, ha, he⟩ := ho' _ hm
    cases a <;> simp [Act.emits] at he
    exact absurd ha hc
  | tx m ok =>
    have := (ho _ hm).1 m ok rfl
    simp [isHeartbeat, this.1]
  | _ => rfl

theorem Calls.write0 {m : Msg} (hm : m.cls ≠ 20) : Calls NoBeat (writeMessage c m) := by
  intro w
  obtain ⟨tp, ub, t, ht, hc⟩ := writeMessage_frame c m w
  rw [ht]
  refine ⟨t, rfl, ?_⟩
  rcases hc with rfl | ⟨rfl, -⟩
  · intro o ho
    rw [List.mem_singleton] at ho
    subst ho
    exact decide_eq_false fun h => hm h.1
  · simp

theorem Calls.tx0 {prio typ : U8} {l : List U8} : Calls NoBeat (Core.tx c prio typ l) :=
  .bind .get fun _ => .write0 (by simp [CLASS_PROTOCOL])

theorem Calls.txVoid0 {prio typ : U8} {l : List U8} : Calls NoBeat (Core.txVoid c prio typ l) := .bind .tx0 fun _ => .pure _

/-- No event makes the handlers send a heartbeat. -/
theorem Calls.handler0 (m : Msg) : Calls NoBeat (Core.handleProtocolClassType c m) := by
  by_cases h12 : m.typ = 12
  · rw [handler12 h12]
    unfold Core.handleEnterBootLoaderMode
    refine .bind .get fun _ => .whenM fun _ => .ite (fun hb => ?_) fun _ => .txVoid0
    have hg : ∀ i, Calls NoBeat (DevData.getGuid c i) := fun i w => ⟨[], by rw [getGuid_snd]; simp, by simp⟩
    refine .bind (hg _) fun _ => .bind (hg _) fun _ => .bind (hg _) fun _ => .bind (hg _) fun _ => .ite (fun _ => .txVoid0) fun _ => ?_
    refine .bind (.beatless (.changeToStateIdle (A := [.st .idle, .idleEntered]) (by decide)) (by decide)) fun _ => ?_
    exact .bind (.emit rfl) fun _ => .emit rfl
  · exact .resp (Calls.handler h12) (.handleProtocolClassType (fun _ => trivial)) (by decide)

theorem Calls.event0 (m : Msg) : Calls NoBeat (Core.activeEvent c m) := by
  unfold Core.activeEvent
  refine .bind (.ite (fun _ => .ite (fun _ => ?_) fun _ => .handler0 m) fun _ => .emit rfl) fun _ => .bind (.whenM fun h => ?_) fun _ =>
    .whenM fun h => ?_
  · exact .bind .get fun _ => .bind (.emit rfl) fun _ => .whenM fun _ => .handler0 m
  · exact .beatless (.dmExecuteActions (fun _ => trivial)) (by decide)
  · exact .beatless (.ngExecuteActions (fun _ => trivial) (fun _ => trivial)) (by decide)

theorem Calls.changeInit0 (b : Bool) : Calls NoBeat (Core.changeToStateInit c b) :=
  .beatless (.changeToStateInit (A := [.st .init, .ist, .nick]) (by decide)) (by decide)

theorem Calls.changeActive0 : Calls NoBeat (Core.changeToStateActive c) := by
  unfold Core.changeToStateActive
  refine .bind .get fun _ => .whenM fun _ => .bind (.emit rfl) fun _ => .bind (.setV _) fun _ => .bind .txVoid0 fun _ => .whenM fun _ => ?_
  exact .beatless (c := c) (.timerStart (A := [.tm .heartbeat]) _ (by decide)) (by decide)

/-- Only an active node sends heartbeats. -/
theorem Calls.dispatch0 {rx : Option Msg} {w : W} (h : w.v.st ≠ .active) : ∃ t, (Core.dispatch c rx w).2.out = w.out ++ t ∧ ∀ o ∈ t, NoBeat o := by
  have tm : ∀ {t : Tmr} {x : U16}, Calls NoBeat (timerStart t x) := fun {t x} => .beatless (c := c) (.timerStart (A := [.tm t]) _ (by simp)) (by simp [Act.beatless])
  have ts : ∀ {t : Tmr}, Calls NoBeat (timerStop t) := fun {t} => .beatless (c := c) (.timerStop (A := [.tm t]) (by simp)) (by simp [Act.beatless])
  have tr : ∀ {t : Tmr}, Calls NoBeat (timerRunning t) := fun {t} => .beatless (c := c) (A := []) (.timerRunning _) (by simp)
  have wn : ∀ {n : U8}, Calls NoBeat (Core.writeNicknameId c n) := fun {n} => .beatless (c := c) (.writeNicknameId (A := [.nick]) (by simp)) (by decide)
  unfold Core.dispatch
  rw [bind_run, get_run]
  dsimp only
  cases hs : w.v.st with
  | startup =>
    refine Calls.bind ?_ (fun _ => .pure _) w
    unfold Core.stateStartup
    refine .bind .get fun _ => .ite (fun _ => .ite (fun _ => ?_) fun _ => ?_) fun _ => .changeActive0
    · cases rx with
      | none => exact .pure _
      | some m => exact .whenM fun _ => .beatless .handleGuidDropNickname (by decide)
    · exact .bind (.beatless (A := []) .getStartUpControl (by decide)) fun _ => .whenM fun _ => .changeInit0 _
  | init =>
    refine Calls.bind ?_ (fun _ => .pure _) w
    unfold Core.stateInit
    refine .bind .get fun w => ?_
    split
    · exact .bind .tx0 fun _ => .whenM fun _ => .bind (.setV _) fun _ => tm
    · exact .bind tr fun _ => .ite (fun _ => .setV _) fun _ => .whenM fun _ => .setV _
    · exact .bind .tx0 fun _ => .whenM fun _ => .ite (fun _ => .bind ts fun _ =>
        .beatless (.changeToStateIdle (A := [.st .idle, .idleEntered]) (by decide)) (by decide)) fun _ => .bind (.setV _) fun _ => tm
    · exact .bind tr fun _ => .ite (fun _ => .bind wn fun _ => .changeActive0) fun _ => .whenM fun _ => .bind ts fun _ => .setV _
  | preActive =>
    refine Calls.bind ?_ (fun _ => .pure _) w
    unfold Core.statePreActive
    refine .bind tr fun _ => .ite (fun _ => .changeInit0 _) fun _ => ?_
    cases rx with
    | none => exact .pure _
    | some m => exact .whenM fun _ => .bind ts fun _ => .bind wn fun _ => .bind .txVoid0 fun _ => .changeActive0
  | active => exact absurd hs h
  | reset => exact Calls.bind (.beatless (c := c) .stateReset (by decide)) (fun _ => .pure _) w
  | idle => exact ⟨[], by simp, by simp⟩
  | error => exact ⟨[], by simp, by simp⟩

end

/-- The frame of the node heartbeat. -/
def beatFrame (c : Ctx) (w : W) : Msg :=
  ⟨3, 20, 9, w.v.nick, c.hardCoded, 3, bytes8 [0, (DevData.getZone c w).1, (DevData.getSubZone c w).1]⟩

/-- The node heartbeat is due. -/
def Due (c : Ctx) (w : W) : Prop := c.hbNode = true ∧ w.v.hbOn = true ∧ (w.tm.ok .heartbeat && w.tm.rem .heartbeat != 0) = false

instance (c : Ctx) (w : W) : Decidable (Due c w) := by unfold Due; infer_instance

theorem heartbeat_run (c : Ctx) (w : W) :
    (Due c w → (Core.activeHeartbeat c w).2.out = w.out ++
        [if c.customHb = true then .customHeartbeat else .tx (beatFrame c w) (c.txOk w.out.length)] ∧
      (Core.activeHeartbeat c w).2.tm = { w.tm with rem := fun t => if t = .heartbeat ∧ w.tm.ok .heartbeat = true then c.hbPeriod else w.tm.rem t }) ∧
    (¬Due c w → (Core.activeHeartbeat c w).2 = w) := by
  have hz : ∀ w, (DevData.getZone c w).2 = w := by
    intro w; unfold DevData.getZone Ps.readZone; simp only [ite_run]; split <;> rfl
  have hsz : ∀ w, (DevData.getSubZone c w).2 = w := by
    intro w; unfold DevData.getSubZone Ps.readSubZone; simp only [ite_run]; split <;> rfl
  refine ⟨fun h => ?_, fun h => ?_⟩
  · unfold Core.activeHeartbeat
    rw [bind_run, get_run, bind_run]
    simp only [timerRunning_run, whenM_run]
    unfold Due at h
    rw [if_pos h, bind_run]
    by_cases hc : c.customHb = true
    · rw [if_pos hc, if_pos hc, emit_run, timerStart_run]
      dsimp only
      split <;> rename_i hk <;> simp [hk]
    · rw [if_neg hc, if_neg hc]
      rw [bind_run, bind_run, bind_run, bind_run, hz, hsz]
      unfold Core.prepareTxMessage Core.sendEvent
      simp only [bind_run, get_run, pure_run]
      have hm : Msg.mk 3 20 9 w.v.nick c.hardCoded 3 (bytes8 [0, (DevData.getZone c w).1, (DevData.getSubZone c w).1]) = beatFrame c w := rfl
      rw [hm]
      have hb : (beforeTx c (beatFrame c w) w).tm = w.tm := by
        unfold beforeTx
        split
        · rw [loopPut_frame]
        · rfl
      have hw : (writeMessage c (beatFrame c w) w).2.out = w.out ++ [.tx (beatFrame c w) (c.txOk w.out.length)] ∧
          (writeMessage c (beatFrame c w) w).2.tm = w.tm := by
        rw [writeMessage_run, if_neg (fun h => h.2 (show (3 : U8).toNat ≤ 8 by decide)), countErr_eq]
        exact ⟨rfl, hb⟩
      generalize (writeMessage c (beatFrame c w) w).2 = w2 at hw
      rw [timerStart_run]
      dsimp only
      rw [hw.2]
      split <;> rename_i hk <;> simp [hk, hw]
  · unfold Core.activeHeartbeat
    rw [bind_run, get_run, bind_run]
    simp only [timerRunning_run, whenM_run]
    unfold Due at h
    rw [if_neg h]

/-! ### The heartbeat timer -/

/-- The heartbeat timer is unchanged or started again. -/
def HbTr (c : Ctx) (w w' : W) : Prop :=
  w'.tm.ok = w.tm.ok ∧ (w'.tm.rem .heartbeat = w.tm.rem .heartbeat ∨ w'.tm.rem .heartbeat = c.hbPeriod)

/-- For a function. -/
def HbM {α : Type} (c : Ctx) (m : M α) : Prop := ∀ w, HbTr c w (m w).2

section
variable {α β : Type} {c : Ctx}

theorem HbTr.trans {w w' w'' : W} (h : HbTr c w w') (h' : HbTr c w' w'') : HbTr c w w'' := by
  refine ⟨h'.1.trans h.1, ?_⟩
  rcases h'.2 with e | e
  · rw [e]; exact h.2
  · exact .inr e

theorem HbTr.steps {A : List Act} {w w' : W} (h : Steps c True A w w') (h1 : A.all (fun a => !a.touches (.tm .heartbeat)) = true)
    (h2 : A.all (fun a => !a.touches .ok) = true) : HbTr c w w' := ⟨h.same .ok h2, .inl (h.same (.tm .heartbeat) h1)⟩

theorem HbM.pure (a : α) : HbM c (pure a : M α) := fun _ => ⟨rfl, .inl rfl⟩
theorem HbM.get : HbM c M.get := fun _ => ⟨rfl, .inl rfl⟩
theorem HbM.setV (f : Vars → Vars) : HbM c (setV f) := fun _ => ⟨rfl, .inl rfl⟩
theorem HbM.emit (o : Out) : HbM c (emit o) := fun _ => ⟨rfl, .inl rfl⟩
theorem HbM.bind {m : M α} {f : α → M β} (h : HbM c m) (h' : ∀ a, HbM c (f a)) : HbM c (m >>= f) := by
  intro w; rw [bind_run]; exact (h w).trans (h' _ _)
theorem HbM.whenM {p : Prop} [Decidable p] {m : M Unit} (h : p → HbM c m) : HbM c (whenM p m) := by
  intro w; rw [whenM_run]; split
  · exact h ‹_› w
  · exact ⟨rfl, .inl rfl⟩
theorem HbM.ite {p : Prop} [Decidable p] {a b : M α} (h : p → HbM c a) (h' : ¬p → HbM c b) : HbM c (if p then a else b) := by
  split
  · exact h ‹_›
  · exact h' ‹_›
theorem HbM.foot {A : List Act} {m : M α} (hf : Foot c True A m) (h1 : A.all (fun a => !a.touches (.tm .heartbeat)) = true)
    (h2 : A.all (fun a => !a.touches .ok) = true) : HbM c m := fun w => .steps (hf w) h1 h2
theorem HbM.start : HbM c (timerStart .heartbeat c.hbPeriod) := by
  intro w
  rw [timerStart_run]
  split
  · exact ⟨rfl, .inr (by simp)⟩
  · exact ⟨rfl, .inl rfl⟩

theorem HbM.changeActive : HbM c (Core.changeToStateActive c) :=
  .bind .get fun _ => .whenM fun _ => .bind (.emit _) fun _ => .bind (.setV _) fun _ =>
    .bind (.foot (.txVoid (A := [.tx]) (.inl (by simp)) (by decide)) (by decide) (by decide)) fun _ => .whenM fun _ => .start

theorem HbM.heartbeat : HbM c (Core.activeHeartbeat c) := by
  intro w
  by_cases h : Due c w
  · have := ((heartbeat_run c w).1 h).2
    rw [HbTr, this]
    refine ⟨rfl, ?_⟩
    dsimp only
    split
    · exact .inr rfl
    · exact .inl rfl
  · rw [(heartbeat_run c w).2 h]; exact ⟨rfl, .inl rfl⟩

theorem HbTr.pre (c : Ctx) (rx : Option Msg) (w : W) : HbTr c w (preProcess c rx w).2 :=
  ⟨pre_same c rx w .ok (by decide), .inl (pre_same c rx w (.tm .heartbeat) (by decide))⟩

theorem HbM.process (rx : Option Msg) : HbM c (Core.process c rx) := by
  intro w
  refine HbTr.trans (.pre c rx w) ?_
  rw [process_split, preProcess_rx]
  generalize (preProcess c rx w).2 = w1
  generalize (readMessage c rx w).1 = r
  unfold Core.dispatch
  rw [bind_run, get_run]
  dsimp only
  have tm : ∀ {x : U16}, HbM c (timerStart .main x) := .foot (.timerStart (A := [.tm .main]) _ (by simp)) (by decide) (by decide)
  have ts : HbM c (timerStop .main) := .foot (.timerStop (A := [.tm .main]) (by simp)) (by decide) (by decide)
  have tr : ∀ {t : Tmr}, HbM c (timerRunning t) := .foot (A := []) (.timerRunning _) (by decide) (by decide)
  have wn : ∀ {n : U8}, HbM c (Core.writeNicknameId c n) := .foot (.writeNicknameId (A := [.nick]) (by simp)) (by decide) (by decide)
  have ci : ∀ {b : Bool}, HbM c (Core.changeToStateInit c b) := .foot (.changeToStateInit (A := [.st .init, .ist, .nick]) (by decide)) (by decide) (by decide)
  have tx : ∀ {prio typ b : U8} (_ : prio.toNat < 8 := by decide), HbM c (Core.tx c prio typ [b]) := fun hp => .foot (.tx (A := [.tx]) (.inl (by simp)) (by decide) hp) (by decide) (by decide)
  have tv : ∀ {prio typ : U8} (_ : prio.toNat < 8 := by decide), HbM c (Core.txVoid c prio typ []) := fun hp => .foot (.txVoid (A := [.tx]) (.inl (by simp)) (by decide) hp) (by decide) (by decide)
  cases w1.v.st with
  | startup =>
    refine HbM.bind ?_ (fun _ => .pure _) w1
    unfold Core.stateStartup
    refine .bind .get fun _ => .ite (fun _ => .ite (fun _ => ?_) fun _ => ?_) fun _ => .changeActive
    · cases r with
      | none => exact .pure _
      | some m => exact .whenM fun _ => .foot .handleGuidDropNickname (by decide) (by decide)
    · exact .bind (.foot (A := []) .getStartUpControl (by decide) (by decide)) fun _ => .whenM fun _ => ci
  | init =>
    refine HbM.bind ?_ (fun _ => .pure _) w1
    unfold Core.stateInit
    refine .bind .get fun w => ?_
    split
    · exact .bind tx fun _ => .whenM fun _ => .bind (.setV _) fun _ => tm
    · exact .bind tr fun _ => .ite (fun _ => .setV _) fun _ => .whenM fun _ => .setV _
    · exact .bind tx fun _ => .whenM fun _ => .ite (fun _ => .bind ts fun _ =>
        .foot (.changeToStateIdle (A := [.st .idle, .idleEntered]) (by decide)) (by decide) (by decide)) fun _ => .bind (.setV _) fun _ => tm
    · exact .bind tr fun _ => .ite (fun _ => .bind wn fun _ => .changeActive) fun _ => .whenM fun _ => .bind ts fun _ => .setV _
  | preActive =>
    refine HbM.bind ?_ (fun _ => .pure _) w1
    unfold Core.statePreActive
    refine .bind tr fun _ => .ite (fun _ => ci) fun _ => ?_
    cases r with
    | none => exact .pure _
    | some m => exact .whenM fun _ => .bind ts fun _ => .bind wn fun _ => .bind tv fun _ => .changeActive
  | active =>
    refine HbM.bind ?_ (fun _ => .bind .heartbeat fun _ => .bind ?_ fun _ => .pure _) w1
    · cases r with
      | none => exact .pure _
      | some m => exact .foot (.activeEvent (fun _ => trivial) (fun _ _ => trivial) (fun _ _ => trivial)) (by decide) (by decide)
    · exact .foot .activeExtRead (by decide) (by decide)
  | reset => exact HbM.bind (.foot .stateReset (by decide) (by decide)) (fun _ => .pure _) w1
  | idle => exact ⟨rfl, .inl rfl⟩
  | error => exact ⟨rfl, .inl rfl⟩

end
end Vscp
