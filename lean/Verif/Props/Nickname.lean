/-
Property theorems: the nickname of an active node (C33).
-/
import Verif.Props.Discovery

namespace Vscp.Nickname
open M Spec Transport Safety Discovery

/-! ### C33 does not hold in general -/

/-- The nickname of an active node is in 1..254. -/
def validNick (w : W) : Prop := w.v.st = .active → 1 ≤ w.v.nick.toNat ∧ w.v.nick.toNat ≤ 254

/-- Four ways to an active node without a valid nickname: an event which sets the nickname 0xFF, a factory restore by the
application or by the restore register, a segment master which assigns 0, and a stored nickname 0. -/
theorem C33_violated :
    ¬validNick (node Ex.ctx allOk (mem 0x60) [.process none, .process (some (Ex.msg 0 6 0 [5, 0xFF]))]) ∧
    ¬validNick (node Ex.ctx allOk (mem 0x60) [.process none, .restore]) ∧
    ¬validNick (node Ex.ctx allOk (mem 0x60) [.process none, .process (some (Ex.msg 0 11 0 [5, 0xA2, 0x55])), .tick 10,
      .process (some (Ex.msg 0 11 0 [5, 0xA2, 0xAA]))]) ∧
    ¬validNick (node Ex.ctx allOk (fun a => if a = 1 then 0xFF else mem 0x60 a) [.process none, .process none,
      .process (some (Ex.msg 0 3 0 [])), .process (some (Ex.msg 0 6 0 [0xFF, 0]))]) ∧
    ¬validNick (node Ex.ctx allOk (fun a => if a = 1 then 0 else mem 0x60 a) [.process none]) := by
  unfold validNick
  decide +kernel

/-! ### What holds -/

/-- The invariant: the nickname is not 0, and an active node has one. -/
def V (w : W) : Prop := w.v.nick ≠ 0 ∧ (w.v.st = .active → w.v.nick ≠ 0xFF)

theorem V_valid {w : W} (h : V w) : validNick w := by
  intro ha
  have h1 : w.v.nick.toNat ≠ 0 := fun e => h.1 (BitVec.eq_of_toNat_eq e)
  have h2 : w.v.nick.toNat ≠ 255 := fun e => h.2 ha (BitVec.eq_of_toNat_eq e)
  have := w.v.nick.isLt
  omega

/-- The step changes neither the nickname nor makes the node active. -/
def plainV (a : Act) : Bool := !a.touches .nick && a != .st .active

theorem V_step {c : Ctx} {a : Act} {w w' : W} (hst : Step c True a w w') (hp : plainV a = true) (h : V w) : V w' := by
  unfold plainV at hp
  rw [Bool.and_eq_true, Bool.not_eq_true'] at hp
  have hn : w'.v.nick = w.v.nick := hst.same .nick hp.1
  unfold V
  rw [hn]
  refine ⟨h.1, fun ha => ?_⟩
  by_cases hs : ∃ s, a = .st s
  · obtain ⟨s, rfl⟩ := hs
    have e : w' = { w with v := { w.v with st := s }, out := w.out ++ lampCalls s } := hst.2
    rw [e] at ha
    have ha : s = .active := ha
    rw [ha] at hp
    simp at hp
  · by_cases hv : a = .initVars
    · subst hv
      simp [Act.touches] at hp
    · have e : w'.v.st = w.v.st := hst.same .st (by cases a <;> first | exact absurd rfl hv | exact absurd ⟨_, rfl⟩ hs | rfl)
      exact h.2 (e.symm.trans ha)

theorem V_steps {c : Ctx} {A : List Act} {w w' : W} (hs : Steps c True A w w') (hA : A.all plainV = true) (h : V w) : V w' :=
  hs.inv (P := V) (fun a ha _ _ hst hV => V_step hst (List.all_eq_true.mp hA a ha) hV) h

/-- As long as no factory restore takes place. -/
theorem V_restore {c : Ctx} {A : List Act} {w w' : W} (hs : Steps c True A w w') (hA : (A.filter (· ≠ .restore)).all plainV = true) (h : V w) :
    ∃ t, w'.out = w.out ++ t ∧ (.appRestore ∉ t → V w') := by
  induction hs with
  | refl => exact ⟨[], by simp, fun _ => h⟩
  | tail hs ha hst ih =>
    rename_i w1 w2 a
    obtain ⟨t, ht, hV⟩ := ih
    obtain ⟨t2, ht2, -⟩ := (Steps.one (A := [a]) (by simp) hst).outs
    refine ⟨t ++ t2, by rw [ht2, ht, List.append_assoc], fun hn => ?_⟩
    have hV := hV fun hm => hn (List.mem_append_left _ hm)
    by_cases hr : a = .restore
    · subst hr
      exfalso
      have e : w2 = (Core.restoreFactoryDefaultSettings c w1).2 := hst
      rw [e, restore_run] at ht2
      have := List.append_cancel_left ht2
      rw [← this] at hn
      simp at hn
    · exact V_step hst (List.all_eq_true.mp hA a (List.mem_filter.mpr ⟨ha, by simpa using hr⟩)) hV

theorem changeInit_nick (c : Ctx) (b : Bool) (w : W) (h : w.v.st ≠ .init) : (Core.changeToStateInit c b w).2.v.nick = 0xFF := by
  unfold Core.changeToStateInit
  simp only [bind_run, get_run, whenM_run, if_pos h, emit_run, setV_run, writeNick_run]
  rfl

theorem V_none {w : W} (h1 : w.v.nick = 0xFF) (h2 : w.v.st ≠ .active) : V w :=
  ⟨by rw [h1]; decide, fun h => absurd h h2⟩

theorem V_of {w : W} {n : U8} (h : w.v.nick = n) (h0 : n ≠ 0) (h1 : n ≠ 0xFF) : V w := by
  unfold V
  rw [h]
  exact ⟨h0, fun _ => h1⟩

theorem V_changeInit (c : Ctx) (b : Bool) (w : W) (h : V w) : V (Core.changeToStateInit c b w).2 := by
  by_cases hi : w.v.st = .init
  · rw [changeInit_same c b w hi]; exact h
  · exact V_none (changeInit_nick c b w hi) (by rw [(changeInit_run c b w hi).1]; decide)

theorem reset_st (t : U8) (w : W) : (Core.changeToStateReset t w).2.v.st = .reset ∧ (Core.changeToStateReset t w).2.v.nick = w.v.nick := by
  by_cases h : w.v.st = .reset
  · unfold Core.changeToStateReset
    rw [bind_run, get_run]
    simp only [whenM_run, if_neg (show ¬w.v.st ≠ .reset from fun e => e h)]
    exact ⟨h, trivial⟩
  · rw [reset_run t w h]
    exact ⟨rfl, rfl⟩

theorem idle_st (c : Ctx) (w : W) : (Core.changeToStateIdle c w).2.v.st = .idle ∧ (Core.changeToStateIdle c w).2.v.nick = w.v.nick := by
  by_cases h : w.v.st = .idle
  · unfold Core.changeToStateIdle
    rw [bind_run, get_run]
    simp only [whenM_run, if_neg (show ¬w.v.st ≠ .idle from fun e => e h)]
    exact ⟨h, trivial⟩
  · rw [idle_run c w h]
    exact ⟨rfl, rfl⟩

theorem V_effect (c : Ctx) (w : W) (h : V w) : V (GuidDrop.effect c w).2 := by
  unfold GuidDrop.effect
  rw [bind_run, get_run]
  dsimp only
  rw [ite_run]
  split
  · unfold Core.startNodeSegmentInit
    rw [bind_run, get_run, whenM_run]
    split
    · exact V_changeInit c true w h
    · exact h
  · rw [bind_run, writeNick_run]
    exact V_none (reset_st 0 _).2 (by rw [(reset_st 0 _).1]; decide)

theorem V_guid (c : Ctx) (m : Msg) (w : W) (h : V w) : V (Core.handleGuidDropNickname c m w).2 := by
  by_cases hm : m.size = 5 ∧ m.data[0].toNat < 4
  · rw [GuidDrop.handle_run c m w hm]
    split
    · split
      · exact V_effect c _ h
      · exact h
    · exact h
  · unfold Core.handleGuidDropNickname
    rw [whenM_run, if_neg hm]
    exact h

theorem V_heartbeat (c : Ctx) (m : Msg) (w : W) (h : V w) : V (Core.handleHeartbeat c m w).2 := by
  unfold Core.handleHeartbeat
  rw [whenM_run]
  split
  · rw [bind_run]
    have e : (Ps.readSegCrc c w).2 = w := rfl
    rw [e, bind_run]
    have hf : Foot c True [.epochSet, .timeUpdate] (whenM (5 ≤ m.size.toNat) (do
        setV fun v => { v with epoch := Core.epochOf m }
        whenM c.segTimeCallout (emit (.timeUpdate (Core.epochOf m))))) := by
      refine .whenM fun _ => ?_
      exact .bind (.one (a := .epochSet) (by decide) fun w => ⟨_, rfl⟩) fun _ => .whenM fun _ =>
        .one (a := .timeUpdate) (by decide) fun w => ⟨_, rfl⟩
    refine V_steps (hf _) (by decide) ?_
    rw [whenM_run]
    split
    · rw [bind_run, bind_run, get_run, whenM_run]
      have hk : V (Ps.writeSegCrc c m.data[0] w).2 := h
      split
      · exact V_changeInit c true _ hk
      · exact hk
    · exact h
  · exact h

theorem V_probeAck (c : Ctx) (m : Msg) (w : W) (h : V w) : V (Core.handleProbeAck c m w).2 := by
  unfold Core.handleProbeAck
  rw [bind_run, get_run, whenM_run]
  split
  · exact V_changeInit c true w h
  · exact h

theorem V_setNickname (c : Ctx) (m : Msg) (w : W) (h : V w) (hm : m.data[1] ≠ 0xFF) : V (Core.handleSetNicknameId c m w).2 := by
  unfold Core.handleSetNicknameId
  rw [bind_run, get_run, whenM_run]
  split
  · rename_i hc
    rw [bind_run, writeNick_run]
    exact V_steps (Foot.txVoid (c := c) (bad := True) (A := [.tx]) (.inl (by decide)) (by decide) (by decide) _) (by decide)
      ⟨fun e => hc.2.2 e.symm, fun _ => hm⟩
  · exact h

theorem V_drop (c : Ctx) (m : Msg) (w : W) (h : V w) : V (Core.handleDropNicknameId c m w).2 := by
  unfold Core.handleDropNicknameId
  rw [bind_run, get_run, whenM_run]
  dsimp only
  split
  · rw [ite_run]
    split
    · rw [bind_run, writeNick_run]
      exact V_none (reset_st 0 _).2 (by rw [(reset_st 0 _).1]; decide)
    · rw [ite_run]
      split
      · rw [bind_run]
        have hw1 : (whenM (m.data[1] &&& 0x40 ≠ 0) (do
            Core.restoreFactoryDefaultSettings c
            whenM (m.data[1] &&& 0x20 ≠ 0) (Core.writeNicknameId c w.v.nick)) w).2.v.nick ≠ 0 := by
          rw [whenM_run]
          split
          · rw [bind_run, restore_run, whenM_run]
            split
            · rw [writeNick_run]; exact h.1
            · show (0xFF : U8) ≠ 0
              decide
          · exact h.1
        revert hw1
        generalize (whenM (m.data[1] &&& 0x40 ≠ 0) (do
            Core.restoreFactoryDefaultSettings c
            whenM (m.data[1] &&& 0x20 ≠ 0) (Core.writeNicknameId c w.v.nick)) w).2 = w1
        intro hw1
        rw [ite_run]
        split
        · exact ⟨by rw [(reset_st _ _).2]; exact hw1, fun e => absurd e (by rw [(reset_st _ _).1]; decide)⟩
        · rw [ite_run]
          split
          · rw [bind_run, writeNick_run]
            exact V_none (idle_st c _).2 (by rw [(idle_st c _).1]; decide)
          · rw [bind_run, writeNick_run]
            exact V_none (reset_st _ _).2 (by rw [(reset_st _ _).1]; decide)
      · exact h
  · exact h

theorem otherV {c : Ctx} {m : Msg} (h : m.typ.toNat ∉ [1, 3, 6, 8, 23]) :
    Foot c True (protoActs.filter (fun a => a ≠ .ist ∧ a ≠ .st .init ∧ a ≠ .nick)) (Core.handleProtocolClassType c m) := by
  simp only [List.mem_cons, List.not_mem_nil, or_false, not_or] at h
  unfold Core.handleProtocolClassType
  split
  · rename_i e; exact absurd e h.1
  · exact .mono .handleNewNodeOnline (by decide)
  · rename_i e; exact absurd e h.2.1
  · rename_i e; exact absurd e h.2.2.1
  · rename_i e; exact absurd e h.2.2.2.1
  · exact .mono .handleReadRegister (by decide)
  · exact .mono .handleWriteRegister (by decide)
  · exact .mono .handleEnterBootLoaderMode (by decide)
  · rename_i e; exact absurd e h.2.2.2.2
  · exact .mono .handlePageRead (by decide)
  · exact .mono (.handlePageWrite (fun _ => trivial)) (by decide)
  · exact .mono .handleIncrementRegister (by decide)
  · exact .mono .handleDecrementRegister (by decide)
  · exact .mono .handleWhoIsThere (by decide)
  · exact .mono .handleGetDecisionMatrixInfo (by decide)
  · exact .mono .handleExtendedPageReadRegister (by decide)
  · exact .mono (.handleExtendedPageWriteRegister (fun _ => trivial)) (by decide)
  · exact .pure _

/-- The event assigns no nickname but valid ones, and does not trigger the restore register. -/
def harmless (m : Msg) (nick : U8) : Prop :=
  (m.cls = 0 → m.typ = 6 → m.data[1] ≠ 0 ∧ m.data[1] ≠ 0xFF) ∧ ¬restoreWrite m nick 0xAA

theorem V_handler (c : Ctx) (m : Msg) (w : W) (hc : m.cls = 0) (hm : harmless m w.v.nick) (h : V w) :
    V (Core.handleProtocolClassType c m w).2 := by
  by_cases h1 : m.typ.toNat = 1
  · rw [handler1 (ofToNat h1 rfl), whenM_run]
    split
    · exact V_heartbeat c m w h
    · exact h
  by_cases h3 : m.typ.toNat = 3
  · rw [handler3 (ofToNat h3 rfl)]; exact V_probeAck c m w h
  by_cases h6 : m.typ.toNat = 6
  · rw [handler6 (ofToNat h6 rfl)]; exact V_setNickname c m w h (hm.1 hc (ofToNat h6 rfl)).2
  by_cases h8 : m.typ.toNat = 8
  · rw [handler8 (ofToNat h8 rfl)]; exact V_drop c m w h
  by_cases h23 : m.typ.toNat = 23
  · rw [handler23 (ofToNat h23 rfl)]; exact V_guid c m w h
  obtain ⟨t, ht, hV⟩ := V_restore (otherV (c := c) (m := m) (by simp [h1, h3, h6, h8, h23]) w) (by decide) h
  obtain ⟨-, ⟨t', ht', hr⟩, -⟩ := handle_tr162 c m hc w
  have e : t = t' := List.append_cancel_left (ht.symm.trans ht')
  subst e
  refine hV fun hmem => ?_
  rcases hr hmem with hd | ⟨hq, -⟩
  · exact h8 (by rw [hd.2.1]; rfl)
  · exact hm.2 hq

/-- A cycle in which the discovery does not find a nickname leaves it as it is. -/
theorem init_nick (c : Ctx) (rx : Option Msg) (w : W) (h : w.v.st = .init) (hn : w.v.ist = .probeWait → (disc w).running = true) :
    (Core.process c rx w).2.v.nick = w.v.nick ∧ (Core.process c rx w).2.v.st ≠ .active := by
  have hn1 : (preProcess c rx w).2.v.nick = w.v.nick := pre_same c rx w .nick (by decide)
  rw [← hn1]
  have hd := disc_pre c rx w
  have hist : (preProcess c rx w).2.v.ist = w.v.ist := congrArg Disc.ist hd
  have hst : (preProcess c rx w).2.v.st ≠ .active := by
    have := congrArg Disc.st hd
    rw [show (preProcess c rx w).2.v.st = w.v.st from this, h]; decide
  have hst1 : (preProcess c rx w).2.v.st = .init := (congrArg Disc.st hd).trans h
  have hrun : (disc (preProcess c rx w).2).running = (disc w).running := by rw [hd]
  rw [process_init h]
  generalize (preProcess c rx w).2 = w1 at *
  have fin : ∀ {A : List Act} {w2 : W}, Steps c True A w1 w2 → A.all plainV = true → w2.v.nick = w1.v.nick ∧ w2.v.st ≠ .active := by
    intro A w2 hs hA
    refine hs.inv (P := fun w2 => w2.v.nick = w1.v.nick ∧ w2.v.st ≠ .active) (fun a ha u u' hst hP => ?_) ⟨rfl, hst⟩
    have hp := List.all_eq_true.mp hA a ha
    unfold plainV at hp
    rw [Bool.and_eq_true, Bool.not_eq_true'] at hp
    have hn : u'.v.nick = u.v.nick := hst.same .nick hp.1
    refine ⟨hn.trans hP.1, ?_⟩
    by_cases hs : ∃ s, a = .st s
    · obtain ⟨s, rfl⟩ := hs
      have e : u' = { u with v := { u.v with st := s }, out := u.out ++ lampCalls s } := hst.2
      rw [e]
      intro ha
      have ha : s = .active := ha
      rw [ha] at hp
      simp at hp
    · by_cases hv : a = .initVars
      · subst hv
        simp [Act.touches] at hp
      · have e : u'.v.st = u.v.st := hst.same .st (by cases a <;> first | exact absurd rfl hv | exact absurd ⟨_, rfl⟩ hs | rfl)
        rw [e]; exact hP.2
  unfold Core.stateInit
  rw [bind_run, get_run]
  dsimp only
  have ist : ∀ (f : Vars → ISt) (g : Vars → U8),
      Foot c True [.tx, .ist, .tm .main, .st .preActive, .st .idle, .idleEntered] (setV fun v => { v with ist := f v, probe := g v }) :=
    fun f g => .one (a := .ist) (by decide) fun w => ⟨_, _, rfl⟩
  cases hi : w.v.ist with
  | probeMaster =>
    rw [hist, hi]
    refine fin (A := [.tx, .ist, .tm .main, .st .preActive, .st .idle, .idleEntered]) ?_ (by decide)
    exact Foot.bind (.tx (.inl (by simp)) (by decide)) (fun _ => .whenM fun _ => .bind (ist (fun _ => _) (fun v => v.probe)) fun _ =>
      .timerStart _ (by decide)) _
  | probeMasterWait =>
    rw [hist, hi]
    refine fin (A := [.tx, .ist, .tm .main, .st .preActive, .st .idle, .idleEntered]) ?_ (by decide)
    dsimp only
    rw [bind_run, timerRunning_run]
    dsimp only
    rw [ite_run]
    split
    · exact ist _ _ _
    · rw [whenM_run]
      split
      · exact Foot.changeToStatePreActive (by decide) _ hst1
      · exact .refl _
  | probe =>
    rw [hist, hi]
    refine fin (A := [.tx, .ist, .tm .main, .st .preActive, .st .idle, .idleEntered]) ?_ (by decide)
    exact Foot.bind (.tx (.inl (by simp)) (by decide)) (fun _ => .whenM fun _ => .ite (fun _ =>
      .bind (.timerStop (by decide)) fun _ => .changeToStateIdle (by decide)) fun _ =>
      .bind (ist (fun _ => _) (fun v => v.probe)) fun _ => .timerStart _ (by decide)) _
  | probeWait =>
    rw [hist, hi]
    dsimp only
    rw [bind_run, timerRunning_run]
    dsimp only
    have hr : (w1.tm.ok .main && w1.tm.rem .main != 0) = true := hrun.trans (hn hi)
    rw [hr, if_neg (by simp)]
    refine fin (A := [.tx, .ist, .tm .main, .st .preActive, .st .idle, .idleEntered]) ?_ (by decide)
    exact Foot.whenM (fun _ => .bind (.timerStop (by decide)) fun _ => ist _ _) _

/-- A cycle of a node which is neither active nor looking for a nickname by itself. -/
theorem V_cycle {c : Ctx} {rx : Option Msg} {w : W} (h : V w)
    (hm : ∀ m, (readMessage c rx w).1 = some m → harmless m w.v.nick)
    (hi : w.v.st = .init → w.v.ist = .probeWait → w.v.probe ≠ 0 ∧ w.v.probe ≠ 0xFF) : V (Core.process c rx w).2 := by
  have hk : ∀ w1 : W, w1.v.st = w.v.st → w1.v.nick = w.v.nick → V w1 := fun w1 e1 e2 => by
    unfold V; rw [e1, e2]; exact h
  have hpre := hk _ (pre_same c rx w .st (by decide)) (pre_same c rx w .nick (by decide))
  cases hst : w.v.st with
  | init =>
    by_cases hr : w.v.ist = .probeWait ∧ (disc w).running = false
    · rcases cycle_probeWait c rx w hst hr.1 with ⟨-, ha, hn, -⟩ | ⟨hb, -⟩
      · have := hi hst hr.1
        unfold V
        rw [hn]
        exact ⟨this.1, fun _ => this.2⟩
      · rw [hr.2] at hb; cases hb
    · obtain ⟨h1, h2⟩ := init_nick c rx w hst fun hw => by
        cases hb : (disc w).running with
        | true => rfl
        | false => exact absurd ⟨hw, hb⟩ hr
      exact ⟨by rw [h1]; exact h.1, fun e => absurd e h2⟩
  | preActive =>
    have hst1 : (preProcess c rx w).2.v.st = .preActive := (pre_same c rx w .st (by decide)).trans hst
    rw [process_preActive hst]
    generalize (preProcess c rx w).2 = w1 at *
    unfold Core.statePreActive
    rw [bind_run, timerRunning_run]
    dsimp only
    rw [ite_run]
    split
    · exact V_changeInit c false w1 hpre
    · cases hr : (readMessage c rx w).1 with
      | none => exact hpre
      | some m =>
        dsimp only
        rw [whenM_run]
        split
        · rename_i hc
          obtain ⟨hc1, hc2, -, -⟩ := hc
          have hv := (hm m hr).1 hc1 hc2
          rw [bind_run, bind_run, writeNick_run]
          dsimp only
          generalize (timerStop .main w1).2 = w2
          have hf : Foot c True [.tx, .st .active, .tm .heartbeat] (do
              Core.txVoid c 7 7 []
              Core.changeToStateActive c) := .bind (.txVoid (.inl (by decide)) (by decide)) fun _ => .changeToStateActive (by decide)
          refine V_of ((hf _).same .nick (by decide)) hv.1 hv.2
        · exact hpre
  | active =>
    by_cases hex : ∃ m, m.cls = 0 ∧ Takes c rx w m
    · obtain ⟨m, hm0, htk⟩ := hex
      obtain ⟨w1, t1, -, -, hs, htail⟩ := takes_cycle htk hm0
      have hn1 : w1.v.nick = w.v.nick := hs .nick (by decide)
      exact V_steps htail.steps (by decide) (V_handler c m w1 hm0 (by rw [hn1]; exact hm m htk.2.1) (hk w1 (hs .st (by decide)) hn1))
    · obtain ⟨w1, t1, -, -, hs, htail⟩ := other_cycle (c := c) (rx := rx) hst (fun m hm htk => hex ⟨m, hm, htk⟩)
      exact V_steps htail.steps (by decide) (hk w1 (hs .st (by decide)) (hs .nick (by decide)))
  | startup =>
    rw [process_startup hst]
    generalize (preProcess c rx w).2 = w1 at *
    unfold Core.stateStartup
    rw [bind_run, get_run]
    dsimp only
    rw [ite_run]
    split
    · rw [ite_run]
      split
      · cases (readMessage c rx w).1 with
        | none => exact hpre
        | some m =>
          dsimp only
          rw [whenM_run]
          split
          · exact V_guid c m w1 hpre
          · exact hpre
      · rw [bind_run]
        have e : (Core.getStartUpControl c w1).2 = w1 := rfl
        rw [e, whenM_run]
        split
        · exact V_changeInit c true w1 hpre
        · exact hpre
    · rename_i hne
      have hn := (Foot.changeToStateActive (c := c) (bad := True) (A := [.st .active, .tx, .tm .heartbeat]) (by decide) w1).same .nick (by decide)
      have hn : (Core.changeToStateActive c w1).2.v.nick = w1.v.nick := hn
      exact ⟨by rw [hn]; exact hpre.1, fun _ => by rw [hn]; exact hne⟩
  | reset =>
    rw [process_reset hst]
    exact V_steps (Foot.stateReset (c := c) _) (by decide) hpre
  | idle => rw [process_idle (.inl hst)]; exact hpre
  | error => rw [process_idle (.inr hst)]; exact hpre

theorem V_init (c : Ctx) (ok : Tmr → Bool) (w : W) (h : w.ps (Ps.addrNickname c) ≠ 0) : V (Core.init c ok w).2 := by
  refine ⟨?_, fun e => ?_⟩
  · rw [init_nickname]
    split
    · exact h
    · decide
  · rcases init_st c ok w with h | h <;> rw [h] at e <;> cases e

/-- An active node has a nickname in 1..254, as long as nobody assigns another one to it, the stored nickname was not 0, and the factory
settings are not restored while the node is active.  Missing: the three cases excluded by the hypotheses, see `C33_violated`. -/
theorem C33_valid_nickname_partial {c : Ctx} (hc : GoodCfg c) (hs : c.startProbe ≠ 0) (ok : Tmr → Bool) (ps : Nat → U8) (ops : List Op)
    (hops : ∀ op ∈ ops, op.Ok) (hok : ok .main = true) (hi : ∀ ok', .init ok' ∈ ops → ok' .main = true)
    (hps : ps (Ps.addrNickname c) ≠ 0)
    (hm : ∀ pre rx post m, ops = pre ++ .process rx :: post → (readMessage c rx (node c ok ps pre)).1 = some m →
      harmless m (node c ok ps pre).v.nick)
    (hr : ∀ pre post, ops = pre ++ .restore :: post → (node c ok ps pre).v.st ≠ .active) :
    validNick (node c ok ps ops) := by
  refine V_valid ?_
  induction ops using snoc_induction with
  | nil => exact V_init c ok (powerUp ps) hps
  | snoc ops op ih =>
    have hops' : ∀ op ∈ ops, op.Ok := fun o h => hops o (List.mem_append_left _ h)
    have hi' : ∀ ok', .init ok' ∈ ops → ok' .main = true := fun ok' h => hi ok' (List.mem_append_left _ h)
    have ih := ih hops' hi' (fun pre rx post m e => hm pre rx (post ++ [op]) m (by rw [e]; simp))
      (fun pre post e => hr pre (post ++ [op]) (by rw [e]; simp))
    have er : node c ok ps (ops ++ [op]) = (stepOp c op (node c ok ps ops)).2 := by
      show runOps c (ops ++ [op]) (node c ok ps []) = _
      rw [runOps_append]; rfl
    have hst := C34_nickname_stored hc ok ps ops hops'
    have hsearch : Search c (node c ok ps []) ops (disc (node c ok ps ops)) :=
      search c (node c ok ps []) (init_not_init c ok _) ((congrFun (init_ok c ok _) .main).trans hok) ops hi'
    have hm := fun rx m => hm ops rx [] m
    have hr := hr ops []
    rw [er]
    generalize node c ok ps ops = w at *
    by_cases hp : ∃ rx, op = .process rx
    · obtain ⟨rx, rfl⟩ := hp
      refine V_cycle ih (fun m => hm rx m rfl) fun h1 h2 => ?_
      obtain ⟨hne, e, hff, -⟩ := (hsearch.2 h1).2 h2
      obtain ⟨pre, mid, rxp, post, -, hsc, -⟩ := hff
      have := hsc.from_first
      refine ⟨fun h0 => ?_, hne⟩
      have h0 : (disc w).probe = 0 := h0
      rw [h0] at this
      exact hs (BitVec.eq_of_toNat_eq (by simpa using this))
    · have hp : ∀ rx, op ≠ .process rx := fun rx e => hp ⟨rx, e⟩
      by_cases hin : ∃ ok, op = .init ok
      · obtain ⟨ok', rfl⟩ := hin
        exact V_init c ok' w (by rw [← hst]; exact ih.1)
      · by_cases hre : op = .restore
        · subst hre
          show V (Core.restoreFactoryDefaultSettings c w).2
          rw [restore_run]
          exact V_none rfl (hr rfl)
        · by_cases hsn : op = .startNodeSegmentInit
          · subst hsn
            show V (Core.startNodeSegmentInit c w).2
            unfold Core.startNodeSegmentInit
            rw [bind_run, get_run, whenM_run]
            split
            · exact V_changeInit c true w ih
            · exact ih
          · refine V_steps (op_steps c op hp w) ?_ ih
            cases op <;> first | exact absurd rfl (hp _) | exact absurd ⟨_, rfl⟩ hin | exact absurd rfl hre | exact absurd rfl hsn | rfl

/-- A history of this kind: the node finds the nickname 1 by itself, then the nickname 8 is assigned to it. -/
def exampleOps : List Op :=
  [.process none, .process none, .tick 1000, .process none, .process none, .tick 2000, .process none, .process (some (Ex.msg 0 6 0 [1, 8]))]

example : (node Ex.ctx allOk (fun a => if a = 1 then 0xFF else mem 0x60 a) exampleOps).v.st = .active ∧
    (node Ex.ctx allOk (fun a => if a = 1 then 0xFF else mem 0x60 a) exampleOps).v.nick = 8 ∧
    harmless (Ex.msg 0 6 0 [1, 8]) 1 := by
  refine ⟨by decide +kernel, by decide +kernel, ?_, ?_⟩
  · intro _ _; decide
  · rintro ⟨-, -, ⟨h, -⟩ | ⟨h, -⟩ | ⟨h, -⟩⟩ <;> exact absurd h (by decide)

end Vscp.Nickname
