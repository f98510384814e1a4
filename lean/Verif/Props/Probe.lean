/-
Property C85: a node which looks for a nickname sends nothing but probes.
-/
import Verif.Props.Nickname

namespace Vscp.Probe
open M Spec Transport Safety Discovery

/-! ### A node which looks for a nickname has none -/

/-- A node which looks for a nickname has none. -/
def Q (w : W) : Prop := looking w → w.v.nick = 0xFF

theorem Q_not {w : W} (h : ¬looking w) : Q w := fun hl => absurd hl h

/-- The step neither changes the nickname nor begins to look for one. -/
def plainQ (a : Act) : Bool := !a.touches .nick && a != .st .init && a != .st .preActive

/-- The step does not begin to look for a nickname. -/
def plainL (a : Act) : Bool := a != .st .init && a != .st .preActive

theorem looking_step {c : Ctx} {a : Act} {w w' : W} (hst : Step c True a w w') (hp : plainL a = true) (h : looking w') : looking w := by
  unfold plainL at hp
  simp only [Bool.and_eq_true, bne_iff_ne, ne_eq] at hp
  by_cases hs : ∃ s, a = .st s
  · obtain ⟨s, rfl⟩ := hs
    have e : w' = { w with v := { w.v with st := s }, out := w.out ++ lampCalls s } := hst.2
    rw [e] at h
    rcases h with h | h
    · exact absurd (congrArg Act.st h) hp.1
    · exact absurd (congrArg Act.st h) hp.2
  · by_cases hv : a = .initVars
    · subst hv
      have e : w'.v.st = .startup := by
        obtain ⟨_, rfl⟩ := hst
        rfl
      rcases h with h | h <;> exact absurd (e.symm.trans h) (by decide)
    · have e : w'.v.st = w.v.st := hst.same .st (by cases a <;> first | exact absurd rfl hv | exact absurd ⟨_, rfl⟩ hs | rfl)
      unfold looking at h ⊢
      rw [← e]; exact h

theorem not_steps {c : Ctx} {A : List Act} {w w' : W} (hs : Steps c True A w w') (hA : A.all plainL = true) (h : ¬looking w) : ¬looking w' :=
  hs.inv (P := fun w => ¬looking w) (fun a ha _ _ hst hn hl => hn (looking_step hst (List.all_eq_true.mp hA a ha) hl)) h

theorem Q_steps {c : Ctx} {A : List Act} {w w' : W} (hs : Steps c True A w w') (hA : A.all plainQ = true) (h : Q w) : Q w' := by
  refine hs.inv (P := Q) (fun a ha u u' hst hQ hl => ?_) h
  have hp := List.all_eq_true.mp hA a ha
  simp only [plainQ, Bool.and_eq_true, Bool.not_eq_true'] at hp
  rw [show u'.v.nick = u.v.nick from hst.same .nick hp.1.1]
  exact hQ (looking_step hst (by simp only [plainL, Bool.and_eq_true]; exact ⟨hp.1.2, hp.2⟩) hl)

theorem Q_changeInit (c : Ctx) (b : Bool) (w : W) (h : Q w) : Q (Core.changeToStateInit c b w).2 := by
  by_cases hi : w.v.st = .init
  · rw [changeInit_same c b w hi]; exact h
  · exact fun _ => Nickname.changeInit_nick c b w hi

theorem not_of_st {w : W} {s : St} (h : w.v.st = s) (h1 : s ≠ .init) (h2 : s ≠ .preActive) : ¬looking w := by
  rintro (e | e)
  · exact h1 (h.symm.trans e)
  · exact h2 (h.symm.trans e)

theorem Q_effect (c : Ctx) (w : W) (h : Q w) : Q (GuidDrop.effect c w).2 := by
  unfold GuidDrop.effect
  rw [bind_run, get_run]
  dsimp only
  rw [ite_run]
  split
  · unfold Core.startNodeSegmentInit
    rw [bind_run, get_run, whenM_run]
    split
    · exact Q_changeInit c true w h
    · exact h
  · rw [bind_run, writeNick_run]
    exact Q_not (not_of_st (Nickname.reset_st 0 _).1 (by decide) (by decide))

theorem Q_guid (c : Ctx) (m : Msg) (w : W) (h : Q w) : Q (Core.handleGuidDropNickname c m w).2 := by
  by_cases hm : m.size = 5 ∧ m.data[0].toNat < 4
  · rw [GuidDrop.handle_run c m w hm]
    split
    · split
      · exact Q_effect c _ h
      · exact h
    · exact h
  · unfold Core.handleGuidDropNickname
    rw [whenM_run, if_neg hm]
    exact h

theorem Q_heartbeat (c : Ctx) (m : Msg) (w : W) (h : Q w) : Q (Core.handleHeartbeat c m w).2 := by
  unfold Core.handleHeartbeat
  rw [whenM_run]
  split
  · rw [bind_run]
    have e : (Ps.readSegCrc c w).2 = w := rfl
    rw [e, bind_run]
    have hf : Foot c True [.epochSet, .timeUpdate] (whenM (5 ≤ m.size.toNat) (do
        setV fun v => { v with epoch := Core.epochOf m }
        whenM c.segTimeCallout (emit (.timeUpdate (Core.epochOf m))))) := by
      refine .whenM fun _ => ?_
      exact .bind (.one (a := .epochSet) (by decide) fun w => ⟨_, rfl⟩) fun _ => .whenM fun _ =>
        .one (a := .timeUpdate) (by decide) fun w => ⟨_, rfl⟩
    refine Q_steps (hf _) (by decide) ?_
    rw [whenM_run]
    split
    · rw [bind_run, bind_run, get_run, whenM_run]
      have hk : Q (Ps.writeSegCrc c m.data[0] w).2 := h
      split
      · exact Q_changeInit c true _ hk
      · exact hk
    · exact h
  · exact h

theorem Q_handler (c : Ctx) (m : Msg) (w : W) (h : ¬looking w) : Q (Core.handleProtocolClassType c m w).2 := by
  by_cases h1 : m.typ.toNat = 1
  · rw [handler1 (ofToNat h1 rfl), whenM_run]
    split
    · exact Q_heartbeat c m w (Q_not h)
    · exact Q_not h
  · by_cases h3 : m.typ.toNat = 3
    · rw [handler3 (ofToNat h3 rfl)]
      unfold Core.handleProbeAck
      rw [bind_run, get_run, whenM_run]
      split
      · exact Q_changeInit c true w (Q_not h)
      · exact Q_not h
    · by_cases h23 : m.typ.toNat = 23
      · rw [handler23 (ofToNat h23 rfl)]; exact Q_guid c m w (Q_not h)
      · exact Q_not (not_steps (otherType h1 h3 h23 w) (by decide) h)

theorem active_st (c : Ctx) (w : W) : (Core.changeToStateActive c w).2.v.st = .active := by
  by_cases h : w.v.st = .active
  · unfold Core.changeToStateActive
    rw [bind_run, get_run, whenM_run, if_neg (fun e => e h)]
    exact h
  · unfold Core.changeToStateActive
    simp only [bind_run, get_run, whenM_run, if_pos h, emit_run, setV_run]
    have e : ∀ w : W, (whenM (c.hbNode = true ∧ w.v.hbOn = true) (timerStart .heartbeat c.hbPeriod) w).2.v.st = w.v.st := by
      intro w
      rw [whenM_run]
      split
      · rw [timerStart_run]; dsimp only; split <;> rfl
      · rfl
    rw [txVoid_run _ _ _ _ (by simp)]
    split
    · rw [timerStart_run]
      dsimp only
      split <;> simp
    · simp

theorem Q_cycle {c : Ctx} {rx : Option Msg} {w : W} (h : Q w) : Q (Core.process c rx w).2 := by
  have hk : ∀ w1 : W, w1.v.st = w.v.st → w1.v.nick = w.v.nick → Q w1 := fun w1 e1 e2 => by
    unfold Q looking; rw [e1, e2]; exact h
  have hpre := hk _ (pre_same c rx w .st (by decide)) (pre_same c rx w .nick (by decide))
  cases hst : w.v.st with
  | init =>
    by_cases hr : w.v.ist = .probeWait ∧ (disc w).running = false
    · rcases cycle_probeWait c rx w hst hr.1 with ⟨-, ha, hn, -⟩ | ⟨hb, -⟩
      · exact Q_not (not_of_st ha (by decide) (by decide))
      · rw [hr.2] at hb; cases hb
    · obtain ⟨h1, h2⟩ := Nickname.init_nick c rx w hst fun hw => by
        cases hb : (disc w).running with
        | true => rfl
        | false => exact absurd ⟨hw, hb⟩ hr
      exact fun _ => h1.trans (h (.inl hst))
  | preActive =>
    have hst1 : (preProcess c rx w).2.v.st = .preActive := (pre_same c rx w .st (by decide)).trans hst
    rw [process_preActive hst]
    generalize (preProcess c rx w).2 = w1 at *
    unfold Core.statePreActive
    rw [bind_run, timerRunning_run]
    dsimp only
    rw [ite_run]
    split
    · exact Q_changeInit c false w1 hpre
    · cases hr : (readMessage c rx w).1 with
      | none => exact hpre
      | some m =>
        dsimp only
        rw [whenM_run]
        split
        · rw [bind_run, bind_run, bind_run]
          exact Q_not (not_of_st (active_st c _) (by decide) (by decide))
        · exact hpre
  | active =>
    have hna : ∀ w1 : W, w1.v.st = w.v.st → ¬looking w1 := fun w1 e => not_of_st (e.trans hst) (by decide) (by decide)
    by_cases hex : ∃ m, m.cls = 0 ∧ Takes c rx w m
    · obtain ⟨m, hm0, htk⟩ := hex
      obtain ⟨w1, t1, -, -, hs, htail⟩ := takes_cycle htk hm0
      exact Q_steps htail.steps (by decide) (Q_handler c m w1 (hna w1 (hs .st (by decide))))
    · obtain ⟨w1, t1, -, -, hs, htail⟩ := other_cycle (c := c) (rx := rx) hst (fun m hm htk => hex ⟨m, hm, htk⟩)
      exact Q_steps htail.steps (by decide) (hk w1 (hs .st (by decide)) (hs .nick (by decide)))
  | startup =>
    rw [process_startup hst]
    generalize (preProcess c rx w).2 = w1 at *
    unfold Core.stateStartup
    rw [bind_run, get_run]
    dsimp only
    rw [ite_run]
    split
    · rw [ite_run]
      split
      · cases (readMessage c rx w).1 with
        | none => exact hpre
        | some m =>
          dsimp only
          rw [whenM_run]
          split
          · exact Q_guid c m w1 hpre
          · exact hpre
      · rw [bind_run]
        have e : (Core.getStartUpControl c w1).2 = w1 := rfl
        rw [e, whenM_run]
        split
        · exact Q_changeInit c true w1 hpre
        · exact hpre
    · exact Q_not (not_of_st (active_st c _) (by decide) (by decide))
  | reset =>
    rw [process_reset hst]
    exact Q_steps (Foot.stateReset (c := c) _) (by decide) hpre
  | idle => rw [process_idle (.inl hst)]; exact hpre
  | error => rw [process_idle (.inr hst)]; exact hpre

theorem Q_op {c : Ctx} (op : Op) {w : W} (h : Q w) : Q (stepOp c op w).2 := by
  cases op with
  | process rx => exact Q_cycle h
  | init ok =>
    refine Q_not ?_
    show ¬looking (Core.init c ok w).2
    rcases init_st c ok w with h | h
    · exact not_of_st h (by decide) (by decide)
    · exact not_of_st h (by decide) (by decide)
  | startNodeSegmentInit =>
    show Q (Core.startNodeSegmentInit c w).2
    unfold Core.startNodeSegmentInit
    rw [bind_run, get_run, whenM_run]
    split
    · exact Q_changeInit c true w h
    · exact h
  | restore =>
    intro _
    show (Core.restoreFactoryDefaultSettings c w).2.v.nick = 0xFF
    rw [restore_run]
    rfl
  | _ => exact Q_steps (op_steps c _ (fun _ h => by cases h) w) rfl h

/-- C85: whatever happened before, a node which looks for a nickname has none (0xFF), in use and in its memory. -/
theorem C85_no_nickname {c : Ctx} (hc : GoodCfg c) (ok : Tmr → Bool) (ps : Nat → U8) (ops : List Op) (hops : ∀ op ∈ ops, op.Ok)
    (hl : looking (node c ok ps ops)) :
    (node c ok ps ops).v.nick = 0xFF ∧ (node c ok ps ops).ps (Ps.addrNickname c) = 0xFF := by
  have key : ∀ (ops : List Op) (w : W), Q w → Q (runOps c ops w) := by
    intro ops
    induction ops with
    | nil => exact fun _ h => h
    | cons op ops ih => exact fun w h => ih _ (Q_op op h)
  have h := key (.init ok :: ops) (powerUp ps) (Q_not (not_of_st (s := .startup) rfl (by decide) (by decide))) hl
  exact ⟨h, by rw [← C34_nickname_stored hc ok ps ops hops]; exact h⟩

/-! ### Frames of the discovery -/

/-- A frame of the discovery: a probe ("new node online" with one data byte), or (`b`) the answer to an assigned nickname. -/
def Own (b : Bool) (m : Msg) : Prop := m.cls = 0 ∧ (m.typ = 2 ∧ m.size = 1 ∨ b = true ∧ m.typ = 7 ∧ m.size = 0)

/-- What a call of a node with nickname `n` is: no transmission, or one of such a frame. -/
def OwnOf (b : Bool) (n : U8) (o : Out) : Prop := ∀ m r, o = .tx m r → Own b m ∧ m.oAddr = n

/-- All transmissions are frames of the discovery with the nickname as origin, which does not change. -/
def Says (b : Bool) {α : Type} (m : M α) : Prop := ∀ w, ∃ t, (m w).2.out = w.out ++ t ∧ (m w).2.v.nick = w.v.nick ∧ ∀ o ∈ t, OwnOf b w.v.nick o

section
variable {α β : Type} {c : Ctx} {b : Bool}

theorem Says.pure (a : α) : Says b (pure a : M α) := fun w => ⟨[], by simp, rfl, by simp⟩
theorem Says.bind {m : M α} {f : α → M β} (h : Says b m) (h' : ∀ a, Says b (f a)) : Says b (m >>= f) := by
  intro w
  obtain ⟨t, h1, h2, h3⟩ := h w
  obtain ⟨t', h1', h2', h3'⟩ := h' (m w).1 (m w).2
  refine ⟨t ++ t', by rw [bind_run, h1', h1, List.append_assoc], h2'.trans h2, fun o ho => ?_⟩
  rcases List.mem_append.mp ho with ho | ho
  · exact h3 o ho
  · rw [← h2]; exact h3' o ho
theorem Says.get : Says b M.get := fun w => ⟨[], by simp, rfl, by simp⟩
theorem Says.ite {p : Prop} [Decidable p] {x y : M α} (h : p → Says b x) (h' : ¬p → Says b y) : Says b (if p then x else y) := by
  split
  · exact h ‹_›
  · exact h' ‹_›
theorem Says.whenM {p : Prop} [Decidable p] {m : M Unit} (h : p → Says b m) : Says b (whenM p m) := .ite h fun _ => .pure _
theorem Says.setV {f : Vars → Vars} (h : ∀ v, (f v).nick = v.nick) : Says b (setV f) := fun w => ⟨[], by simp, h _, by simp⟩
theorem Says.emit {o : Out} (h : ∀ m r, o ≠ .tx m r) : Says b (emit o) := fun w =>
  ⟨[o], rfl, rfl, fun o' ho m r e => by rw [List.mem_singleton.mp ho] at e; exact absurd e (h m r)⟩
theorem Says.timerStart (t : Tmr) (x : U16) : Says b (timerStart t x) := fun w => by
  rw [timerStart_run]
  refine ⟨[], ?_, ?_, by simp⟩ <;> dsimp only <;> split <;> simp
theorem Says.timerStop (t : Tmr) : Says b (timerStop t) := fun w => by
  refine ⟨[], ?_, ?_, by simp⟩ <;> unfold Vscp.timerStop <;> dsimp only <;> split <;> simp
theorem Says.timerRunning (t : Tmr) : Says b (timerRunning t) := fun w => ⟨[], by simp, rfl, by simp⟩
theorem Says.tx (prio typ : U8) (l : List U8) (h : typ = 2 ∧ l.length = 1 ∨ b = true ∧ typ = 7 ∧ l.length = 0) : Says b (Core.tx c prio typ l) := by
  intro w
  rw [tx_run c prio typ l (by rcases h with h | h <;> omega)]
  refine ⟨[.tx (frame c w prio typ l) (c.txOk w.out.length)], by simp, by simp, ?_⟩
  intro o ho m r e
  rw [List.mem_singleton.mp ho] at e
  cases e
  refine ⟨⟨rfl, ?_⟩, rfl⟩
  have e : (frame c w prio typ l).size = BitVec.ofNat 8 l.length := rfl
  rcases h with ⟨rfl, h⟩ | ⟨hb, rfl, h⟩
  · exact .inl ⟨rfl, by rw [e, h]; rfl⟩
  · exact .inr ⟨hb, rfl, by rw [e, h]; rfl⟩
theorem Says.changeToStateActive : Says b (Core.changeToStateActive c) :=
  .bind .get fun _ => .whenM fun _ => .bind (.emit fun _ _ e => by cases e) fun _ => .bind (.setV fun _ => rfl) fun _ =>
    .bind (.bind (.tx _ _ _ (.inl ⟨rfl, rfl⟩)) fun _ => .pure _) fun _ => .whenM fun _ => .timerStart _ _
theorem Says.changeToStateIdle : Says b (Core.changeToStateIdle c) :=
  .bind .get fun _ => .whenM fun _ => .bind (.emit fun _ _ e => by cases e) fun _ => .bind (.setV fun _ => rfl) fun _ =>
    .whenM fun _ => .emit fun _ _ e => by cases e

end

/-- The calls of a cycle of a node which looks for a nickname. -/
theorem cycle_says (c : Ctx) (rx : Option Msg) (w : W) (hl : looking w) :
    ∃ t, (Core.process c rx w).2.out = w.out ++ t ∧ ∀ o ∈ t, ∀ m r, o = .tx m r →
      (Own false m ∧ m.oAddr = w.v.nick ∧ (Core.process c rx w).2.v.st ≠ .active) ∨
        (Own true m ∧ (Core.process c rx w).2.v.st = .active ∧ m.oAddr = (Core.process c rx w).2.v.nick) := by
  have hpo : (preProcess c rx w).2.out = w.out := pre_out c rx w
  have hpn : (preProcess c rx w).2.v.nick = w.v.nick := pre_same c rx w .nick (by decide)
  rcases hl with hst | hst
  · by_cases hr : w.v.ist = .probeWait ∧ (disc w).running = false
    · have hist : (preProcess c rx w).2.v.ist = w.v.ist := congrArg Disc.ist (disc_pre c rx w)
      have hrun : (disc (preProcess c rx w).2).running = (disc w).running := by rw [disc_pre]
      rw [process_init hst]
      generalize (preProcess c rx w).2 = w1 at *
      have e : (Core.stateInit c (readMessage c rx w).1 w1).2 = (Core.changeToStateActive c (Core.writeNicknameId c w1.v.probe w1).2).2 := by
        unfold Core.stateInit
        rw [bind_run, get_run]
        dsimp only
        rw [hist, hr.1]
        dsimp only
        rw [bind_run, timerRunning_run]
        have : (w1.tm.ok .main && w1.tm.rem .main != 0) = false := hrun.trans hr.2
        dsimp only
        rw [this, if_pos rfl]
        rfl
      rw [e]
      obtain ⟨t, h1, h2, h3⟩ := Says.changeToStateActive (c := c) (b := true) (Core.writeNicknameId c w1.v.probe w1).2
      rw [writeNick_run] at h1 h2 h3 ⊢
      refine ⟨.psW (Ps.addrNickname c) w1.v.probe :: t, by rw [h1, hpo]; simp, fun o ho m r em => .inr ?_⟩
      rcases List.mem_cons.mp ho with ho | ho
      · rw [ho] at em; cases em
      · obtain ⟨a1, a2⟩ := h3 o ho m r em
        exact ⟨a1, active_st c _, by rw [h2]; exact a2⟩
    · have hn := Nickname.init_nick c rx w hst fun hw => by
        cases hb : (disc w).running with
        | true => rfl
        | false => exact absurd ⟨hw, hb⟩ hr
      have hist : (preProcess c rx w).2.v.ist = w.v.ist := congrArg Disc.ist (disc_pre c rx w)
      have hrun : (disc (preProcess c rx w).2).running = (disc w).running := by rw [disc_pre]
      have key : ∃ t, (Core.process c rx w).2.out = w.out ++ t ∧ ∀ o ∈ t, OwnOf false w.v.nick o := by
        rw [process_init hst, ← hpo, ← hpn]
        generalize (preProcess c rx w).2 = w1 at *
        have of_says : ∀ {α : Type} {m : M α}, Says false m → ∃ t, (m w1).2.out = w1.out ++ t ∧ ∀ o ∈ t, OwnOf false w1.v.nick o := by
          intro α m h
          obtain ⟨t, h1, -, h3⟩ := h w1
          exact ⟨t, h1, h3⟩
        unfold Core.stateInit
        rw [bind_run, get_run]
        dsimp only
        cases hi : w.v.ist with
        | probeMaster =>
          rw [hist, hi]
          exact of_says (.bind (.tx _ _ _ (.inl ⟨rfl, rfl⟩)) fun _ => .whenM fun _ => .bind (.setV fun _ => rfl) fun _ => .timerStart _ _)
        | probeMasterWait =>
          rw [hist, hi]
          exact of_says (.bind (.timerRunning _) fun _ => .ite (fun _ => .setV fun _ => rfl) fun _ => .whenM fun _ => .setV fun _ => rfl)
        | probe =>
          rw [hist, hi]
          exact of_says (.bind (.tx _ _ _ (.inl ⟨rfl, rfl⟩)) fun _ => .whenM fun _ => .ite (fun _ => .bind (.timerStop _) fun _ =>
            .changeToStateIdle) fun _ => .bind (.setV fun _ => rfl) fun _ => .timerStart _ _)
        | probeWait =>
          rw [hist, hi]
          dsimp only
          rw [bind_run, timerRunning_run]
          dsimp only
          have hr' : (disc w).running ≠ false := fun e => hr ⟨hi, e⟩
          have : (w1.tm.ok .main && w1.tm.rem .main != 0) = true := by
            have e : (w1.tm.ok .main && w1.tm.rem .main != 0) = (disc w).running := hrun
            rw [e]
            cases h : (disc w).running with
            | true => rfl
            | false => exact absurd h hr'
          rw [this, if_neg (by simp)]
          exact of_says (.whenM fun _ => .bind (.timerStop _) fun _ => .setV fun _ => rfl)
      obtain ⟨t, h1, h3⟩ := key
      exact ⟨t, h1, fun o ho m r em => .inl ⟨(h3 o ho m r em).1, (h3 o ho m r em).2, hn.2⟩⟩
  · have hst1 : (preProcess c rx w).2.v.st = .preActive := (pre_same c rx w .st (by decide)).trans hst
    rw [process_preActive hst]
    generalize (preProcess c rx w).2 = w1 at *
    have nothing : ∀ w2 : W, w2.out = w1.out → ∃ t, w2.out = w.out ++ t ∧ ∀ o ∈ t, ∀ m r, o = .tx m r →
        (Own false m ∧ m.oAddr = w.v.nick ∧ w2.v.st ≠ .active) ∨ (Own true m ∧ w2.v.st = .active ∧ m.oAddr = w2.v.nick) :=
      fun w2 e => ⟨[], by rw [e, hpo]; simp, by simp⟩
    unfold Core.statePreActive
    rw [bind_run, timerRunning_run]
    dsimp only
    rw [ite_run]
    split
    · unfold Core.changeToStateInit
      simp only [bind_run, get_run, whenM_run, emit_run, setV_run, writeNick_run]
      split
      · refine ⟨[.lamp .blinkFast, .psW (Ps.addrNickname c) Core.NOT_INIT], by simp [hpo], ?_⟩
        intro o ho m r em
        simp only [List.mem_cons, List.not_mem_nil, or_false] at ho
        rcases ho with rfl | rfl <;> cases em
      · exact nothing _ rfl
    · cases hr : (readMessage c rx w).1 with
      | none => exact nothing _ rfl
      | some m =>
        dsimp only
        rw [whenM_run]
        split
        · rw [bind_run, bind_run, bind_run, writeNick_run]
          have e1 : (timerStop .main w1).2.out = w1.out := by
            unfold timerStop
            dsimp only
            split <;> rfl
          generalize (timerStop .main w1).2 = w2 at e1
          have hs : Says true (do Core.txVoid c 7 7 []; Core.changeToStateActive c : M Unit) :=
            .bind (.bind (.tx _ _ _ (.inr ⟨rfl, rfl, rfl⟩)) fun _ => .pure _) fun _ => .changeToStateActive
          obtain ⟨t, h1, h2, h3⟩ := hs { w2 with v := { w2.v with nick := m.data[1] }, ps := fun x => if x = Ps.addrNickname c then m.data[1] else w2.ps x, out := w2.out ++ [.psW (Ps.addrNickname c) m.data[1]] }
          rw [bind_run] at h1 h2
          refine ⟨.psW (Ps.addrNickname c) m.data[1] :: t, by rw [h1, e1, hpo]; simp, fun o ho m' r em => .inr ?_⟩
          rcases List.mem_cons.mp ho with ho | ho
          · rw [ho] at em; cases em
          · obtain ⟨a1, a2⟩ := h3 o ho m' r em
            exact ⟨a1, active_st c _, by rw [h2]; exact a2⟩
        · exact nothing _ rfl

/-- C85, partial: in a cycle which a node begins while it looks for a nickname, it sends on its own nothing but frames of the protocol
class: as long as it has none probes (type 2, one data byte) with origin 0xFF; when it gets one the announcement (type 2) and the
answer to the segment master (type 7) with the new nickname as origin.  Missing: the rest of the cycle in which the discovery begins, see
`C85_violated`. -/
theorem C85_discovery_partial {c : Ctx} (hc : GoodCfg c) (ok : Tmr → Bool) (ps : Nat → U8) (ops : List Op) (hops : ∀ op ∈ ops, op.Ok)
    (rx : Option Msg) (hl : looking (node c ok ps ops)) :
    ∃ t, (node c ok ps (ops ++ [.process rx])).out = (node c ok ps ops).out ++ t ∧ ∀ m r, .tx m r ∈ t → m.cls = 0 ∧
      (((node c ok ps (ops ++ [.process rx])).v.st ≠ .active ∧ m.oAddr = 0xFF ∧ m.typ = 2 ∧ m.size = 1) ∨
       ((node c ok ps (ops ++ [.process rx])).v.st = .active ∧ m.oAddr = (node c ok ps (ops ++ [.process rx])).v.nick ∧
          (m.typ = 2 ∧ m.size = 1 ∨ m.typ = 7 ∧ m.size = 0))) := by
  have e : node c ok ps (ops ++ [.process rx]) = (Core.process c rx (node c ok ps ops)).2 := by
    unfold node
    rw [← List.cons_append, runOps_append]
    rfl
  rw [e]
  have hn := (C85_no_nickname hc ok ps ops hops hl).1
  obtain ⟨t, h1, h2⟩ := cycle_says c rx (node c ok ps ops) hl
  refine ⟨t, h1, fun m r hm => ?_⟩
  rcases h2 _ hm m r rfl with ⟨⟨a1, a2⟩, a3, a4⟩ | ⟨⟨a1, a2⟩, a3, a4⟩
  · refine ⟨a1, .inl ⟨a4, a3.trans hn, ?_⟩⟩
    rcases a2 with a2 | ⟨h, -⟩
    · exact a2
    · cases h
  · refine ⟨a1, .inr ⟨a3, a4, ?_⟩⟩
    rcases a2 with a2 | ⟨-, a2⟩
    · exact .inl a2
    · exact .inr a2

/-- The node of the example looks for a nickname, and probes the segment master in the next cycle. -/
example : looking (node Ex.ctx allOk (mem 0x60) [.process none, .startNodeSegmentInit]) ∧
    (node Ex.ctx allOk (mem 0x60) [.process none, .startNodeSegmentInit, .process none]).out.getLast? =
      some (.tx ⟨7, 0, 2, 0xFF, false, 1, bytes8 [0]⟩ true) := by
  refine ⟨?_, ?_⟩ <;> decide +kernel

/-- C85 does not hold for the rest of the cycle in which the discovery begins: a segment heartbeat with another CRC makes the node begin
a discovery (and forget its nickname), but its heartbeat which is due is still sent, with origin 0xFF. -/
theorem C85_violated : ∃ m, (node Ex.ctx allOk (mem 0x60) [.process none, .tick 30000, .process (some (Ex.msg 0 1 9 [77]))]).out.getLast? =
      some (.tx m true) ∧ m.cls = 20 ∧ m.typ = 9 ∧ m.oAddr = 0xFF ∧
    looking (node Ex.ctx allOk (mem 0x60) [.process none, .tick 30000, .process (some (Ex.msg 0 1 9 [77]))]) := by
  refine ⟨⟨3, 20, 9, 0xFF, false, 3, bytes8 [0, 0, 0]⟩, ?_⟩
  decide +kernel

end Vscp.Probe
