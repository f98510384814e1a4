/-
A node as part of a segment: its queue of events, and what it sends when it uses or probes a nickname.
-/
import Verif.Spec.Network
import Verif.Lemmas.StreamOps
import Verif.Props.Nickname
import Verif.Props.States

namespace Vscp
open M Spec Transport

/-! ### The loopback queue -/

/-- The events which are in the loopback queue of the node. -/
def Queued (c : Ctx) (w : W) (q : List Msg) : Prop := (c.loopback = true ∧ LbHolds c w q) ∨ (c.loopback = false ∧ q = [])

theorem Queued.drain {c : Ctx} {w : W} {q : List Msg} (h : Queued c w q) : Transport.drain c c.loopbackNum w = q := by
  rcases h with ⟨hl, h⟩ | ⟨hl, rfl⟩
  · have := h.hq
    rw [List.length_map] at this
    exact drain_spec hl _ _ _ h (by omega)
  · have : ∀ n (w : W), Transport.drain c n w = [] := by
      intro n
      induction n with
      | zero => intro w; rfl
      | succ n ih =>
        intro w
        unfold Transport.drain readMessage
        rw [if_neg (by simp [hl])]
        exact ih _
    exact this _ _

theorem Queued.congr {c : Ctx} {w w' : W} {q : List Msg} (h : Queued c w q) (he : w'.tp.lb = w.tp.lb) : Queued c w' q := by
  rcases h with ⟨hl, h⟩ | h
  · exact .inl ⟨hl, LbHolds_congr h he⟩
  · exact .inr h

/-- The events put into the queue are no protocol events. -/
theorem Queued.write {c : Ctx} {w : W} {q : List Msg} (h : Queued c w q) (m : Msg) :
    ∃ ext, (∀ x ∈ ext, x.cls ≠ 0) ∧ Queued c (writeMessage c m w).2 (q ++ ext) := by
  rcases h with ⟨hl, h⟩ | h
  · have h1 := (writeMessage_queue hl h m).1
    split at h1
    · rename_i hc
      refine ⟨[m], fun x hx => ?_, .inl ⟨hl, h1⟩⟩
      rw [List.mem_singleton.mp hx]
      exact hc.1.2.1
    · exact ⟨[], by simp, .inl ⟨hl, by simpa using h1⟩⟩
  · exact ⟨[], by simp, .inr ⟨h.1, by simp [h.2]⟩⟩

/-- The step does not read from the queue. -/
def Act.keepsQueue : Act → Bool
  | .lbRead | .lbInit => false
  | _ => true

theorem Queued.step {c : Ctx} {a : Act} {w w' : W} {q : List Msg} (hs : Step c True a w w') (ha : a.keepsQueue = true) (h : Queued c w q) :
    ∃ ext, (∀ x ∈ ext, x.cls ≠ 0) ∧ Queued c w' (q ++ ext) := by
  cases ht : a.touches .lb with
  | false => exact ⟨[], by simp, by rw [List.append_nil]; exact h.congr (hs.same .lb ht)⟩
  | true =>
    cases a with
    | tx => obtain ⟨m, -, -, -, rfl⟩ := hs; exact h.write m
    | userTx m => simp only [Step] at hs; subst hs; exact h.write m
    | lbRead => cases ha
    | lbInit => cases ha
    | _ => simp [Act.touches] at ht

theorem Queued.steps {c : Ctx} {A : List Act} {w w' : W} {q : List Msg} (hs : Steps c True A w w') (hA : A.all Act.keepsQueue = true)
    (h : Queued c w q) : ∃ ext, (∀ x ∈ ext, x.cls ≠ 0) ∧ Queued c w' (q ++ ext) := by
  refine hs.inv (P := fun x => ∃ ext, (∀ x ∈ ext, x.cls ≠ 0) ∧ Queued c x (q ++ ext)) (fun a ha u u' hst hP => ?_) ⟨[], by simp, by simpa using h⟩
  obtain ⟨e1, f1, h1⟩ := hP
  obtain ⟨e2, f2, h2⟩ := h1.step hst (List.all_eq_true.mp hA a ha)
  exact ⟨e1 ++ e2, fun x hx => (List.mem_append.mp hx).elim (f1 x) (f2 x), by rw [← List.append_assoc]; exact h2⟩

theorem Queued.init {c : Ctx} (hc : c.loopback = true → LoopbackCfg c) (ok : Tmr → Bool) (w : W) : ∃ q, Queued c (Core.init c ok w).2 q := by
  cases hl : c.loopback with
  | true => obtain ⟨q, h, -⟩ := (init_lbOk hc ok w).1 hl; exact ⟨q, .inl ⟨hl, h⟩⟩
  | false => exact ⟨[], .inr ⟨hl, rfl⟩⟩

theorem Queued.process {c : Ctx} {w : W} {q : List Msg} (h : Queued c w q) (rx : Option Msg) :
    (readMessage c rx w).1 = q.head?.or rx ∧ ∃ ext, (∀ x ∈ ext, x.cls ≠ 0) ∧ Queued c (Core.process c rx w).2 ((if q = [] then [] else q.tail ++ rx.toList) ++ ext) := by
  have hpre : (preProcess c rx w).2.tp.lb = (readMessage c rx w).2.tp.lb := by
    obtain ⟨_, _, _, _, e⟩ := preProcess_frame c rx w
    rw [e]
  have hA : (stateActs w.v.st).all Act.keepsQueue = true := by cases w.v.st <;> decide
  rcases h with ⟨hl, h⟩ | ⟨hl, rfl⟩
  · obtain ⟨cb, hr, hq⟩ := readMessage_spec hl h rx
    refine ⟨?_, ?_⟩
    · rw [hr]
      cases q <;> simp [Option.orElse, Option.or]
    · refine Queued.steps (process_state c rx w) hA (.inl ⟨hl, LbHolds_congr hq ?_⟩)
      rw [hpre, hr]
  · refine ⟨?_, ?_⟩
    · unfold readMessage
      rw [if_neg (by simp [hl])]
      simp
    · refine Queued.steps (process_state c rx w) hA (.inr ⟨hl, by simp⟩)

theorem Queued.op {c : Ctx} {w : W} {q : List Msg} (h : Queued c w q) {op : Op} (hp : ∀ rx, op ≠ .process rx) (hi : ∀ ok, op ≠ .init ok) :
    ∃ ext, (∀ x ∈ ext, x.cls ≠ 0) ∧ Queued c (stepOp c op w).2 (q ++ ext) := by
  refine Queued.steps (op_steps c op hp w) ?_ h
  cases op <;> first | exact absurd rfl (hp _) | exact absurd rfl (hi _) | rfl

theorem Queued.any {c : Ctx} (hc : c.loopback = true → LoopbackCfg c) {w : W} {q : List Msg} (h : Queued c w q) (op : Op) :
    ∃ q', Queued c (stepOp c op w).2 q' := by
  by_cases hp : ∃ rx, op = .process rx
  · obtain ⟨rx, rfl⟩ := hp
    obtain ⟨-, ext, -, h'⟩ := h.process rx
    exact ⟨_, h'⟩
  · by_cases hi : ∃ ok, op = .init ok
    · obtain ⟨ok, rfl⟩ := hi
      exact Queued.init hc ok w
    · obtain ⟨ext, -, h'⟩ := h.op (op := op) (fun rx e => hp ⟨rx, e⟩) (fun ok e => hi ⟨ok, e⟩)
      exact ⟨_, h'⟩

/-! ### Frames -/

theorem framesSent_mem {w w' : W} {m : Msg} {t : List Out} (ht : w'.out = w.out ++ t) (hm : .tx m true ∈ t) : m ∈ framesSent w w' := by
  unfold framesSent
  rw [ht, List.drop_left, List.mem_filterMap]
  exact ⟨_, hm, rfl⟩

theorem isProbe_event (c : Ctx) (nick prio q : U8) : IsProbe (event c nick prio 2 [q]) q := ⟨rfl, rfl, rfl, rfl⟩
theorem isAck_event (c : Ctx) (nick prio : U8) : IsAck (event c nick prio 3 []) nick := ⟨rfl, rfl, rfl, rfl⟩

/-! ### Getting active -/

/-- The step does not make the node active. -/
def Act.notActive (a : Act) : Bool := a != .st .active

theorem notActive_steps {c : Ctx} {A : List Act} {w w' : W} (hs : Steps c True A w w') (hA : A.all Act.notActive = true)
    (h : w.v.st ≠ .active) : w'.v.st ≠ .active := by
  refine hs.inv (P := fun u => u.v.st ≠ .active) (fun a ha u u' hst hP => ?_) h
  have hp := List.all_eq_true.mp hA a ha
  by_cases hs : ∃ s, a = .st s
  · obtain ⟨s, rfl⟩ := hs
    have e : u' = { u with v := { u.v with st := s }, out := u.out ++ lampCalls s } := hst.2
    rw [e]
    rintro (rfl : s = .active)
    simp [Act.notActive] at hp
  · by_cases hv : a = .initVars
    · subst hv
      obtain ⟨r, e⟩ := hst
      rw [e]
      simp
    · have e : u'.v.st = u.v.st := hst.same .st (by cases a <;> first | exact absurd rfl hv | exact absurd ⟨_, rfl⟩ hs | rfl)
      rw [e]; exact hP

theorem op_notActive {c : Ctx} {op : Op} (hp : ∀ rx, op ≠ .process rx) {w : W} (h : w.v.st ≠ .active) : (stepOp c op w).2.v.st ≠ .active := by
  refine notActive_steps (op_steps c op hp w) ?_ h
  cases op <;> first | exact absurd rfl (hp _) | rfl

/-- Between `w` and `w'` the node has sent its announcement. -/
def Announced (c : Ctx) (w w' : W) : Prop :=
  ∃ t, w'.out = w.out ++ t ∧ .tx (event c w'.v.nick 0 2 [w'.v.nick]) true ∈ t

theorem Announced.after {c : Ctx} {w w1 w' : W} {t : List Out} (h : Announced c w1 w') (ht : w1.out = w.out ++ t) : Announced c w w' := by
  obtain ⟨t', ht', hm⟩ := h
  exact ⟨t ++ t', by rw [ht', ht, List.append_assoc], List.mem_append_right _ hm⟩

theorem announced_active {c : Ctx} (hok : ∀ n, c.txOk n = true) (w : W) (h : w.v.st ≠ .active) : Announced c w (Core.changeToStateActive c w).2 := by
  unfold Core.changeToStateActive
  rw [bind_run, get_run]
  dsimp only
  rw [whenM_run, if_pos h, bind_run, emit_run, bind_run, setV_run, bind_run, txVoid_run _ _ _ _ (by simp), whenM_run]
  dsimp only
  split
  · rw [timerStart_run]
    dsimp only
    split
    · refine ⟨[.lamp .on, .tx (event c w.v.nick 0 2 [w.v.nick]) true], ?_, ?_⟩ <;> simp [hok, frame]
    · refine ⟨[.lamp .on, .tx (event c w.v.nick 0 2 [w.v.nick]) true], ?_, ?_⟩ <;> simp [hok, frame]
  · refine ⟨[.lamp .on, .tx (event c w.v.nick 0 2 [w.v.nick]) true], ?_, ?_⟩ <;> simp [hok, frame]

theorem changeInit_notActive (c : Ctx) (b : Bool) (w : W) (h : w.v.st ≠ .active) : (Core.changeToStateInit c b w).2.v.st ≠ .active := by
  by_cases hi : w.v.st = .init
  · rw [changeInit_same c b w hi]; exact h
  · rw [(changeInit_run c b w hi).1]; decide

/-- A node which gets active announces itself. -/
theorem cycle_announces {c : Ctx} (hok : ∀ n, c.txOk n = true) {rx : Option Msg} {w : W} (h : w.v.st ≠ .active)
    (ha : (Core.process c rx w).2.v.st = .active) : Announced c w (Core.process c rx w).2 := by
  have hst1 : (preProcess c rx w).2.v.st = w.v.st := pre_same c rx w .st (by decide)
  have ho : (preProcess c rx w).2.out = w.out ++ [] := by rw [pre_out, List.append_nil]
  have hn1 : (preProcess c rx w).2.v.st ≠ .active := by rw [hst1]; exact h
  have hno : ∀ {A : List Act}, Steps c True A (preProcess c rx w).2 (Core.process c rx w).2 → A.all Act.notActive = true → False :=
    fun hs hA => notActive_steps hs hA hn1 ha
  cases hst : w.v.st with
  | active => exact absurd hst h
  | reset => have hs := process_state c rx w; rw [hst] at hs; exact (hno hs (by decide)).elim
  | idle => have hs := process_state c rx w; rw [hst] at hs; exact (hno hs (by decide)).elim
  | error => have hs := process_state c rx w; rw [hst] at hs; exact (hno hs (by decide)).elim
  | startup =>
    rw [process_startup hst] at ha ⊢
    generalize (preProcess c rx w).2 = w1 at *
    unfold Core.stateStartup at ha ⊢
    rw [bind_run, get_run] at ha ⊢
    dsimp only at ha ⊢
    rw [ite_run] at ha ⊢
    split at ha
    · exfalso
      rw [ite_run] at ha
      split at ha
      · revert ha
        cases (readMessage c rx w).1 with
        | none => exact hn1
        | some m =>
          have hf : Foot c True [.guid, .tm .guidDrop, .st .init, .ist, .nick, .st .reset, .sec, .tm .main]
              (whenM (m.cls = CLASS_PROTOCOL ∧ m.typ = 23) (Core.handleGuidDropNickname c m)) :=
            .whenM fun _ => .mono .handleGuidDropNickname (by decide)
          exact notActive_steps (hf w1) (by decide) hn1
      · rw [bind_run] at ha
        have e : (Core.getStartUpControl c w1).2 = w1 := rfl
        rw [e, whenM_run] at ha
        split at ha
        · exact changeInit_notActive c true w1 hn1 ha
        · exact hn1 ha
    · rename_i hne
      rw [if_neg hne]
      exact (announced_active hok w1 hn1).after ho
  | preActive =>
    rw [process_preActive hst] at ha ⊢
    generalize (preProcess c rx w).2 = w1 at *
    unfold Core.statePreActive at ha ⊢
    rw [bind_run, timerRunning_run] at ha ⊢
    dsimp only at ha ⊢
    rw [ite_run] at ha ⊢
    split at ha
    · exact (changeInit_notActive c false w1 hn1 ha).elim
    · rename_i hne
      rw [if_neg hne]
      revert ha
      cases (readMessage c rx w).1 with
      | none => exact fun ha => absurd ha hn1
      | some m =>
        dsimp only
        rw [whenM_run]
        split
        · intro ha
          rw [bind_run, bind_run, bind_run]
          generalize hw2 : (Core.txVoid c 7 7 [] (Core.writeNicknameId c m.data[1] (timerStop .main w1).2).2).2 = w2
          have hf : Foot c True [.tm .main, .nick, .tx] (do
              timerStop .main
              Core.writeNicknameId c m.data[1]
              Core.txVoid c 7 7 []) := .bind (.timerStop (by decide)) fun _ => .bind (.writeNicknameId (by decide)) fun _ => .txVoid (.inl (by decide)) (by decide)
          have hs := hf w1
          rw [bind_run, bind_run, hw2] at hs
          obtain ⟨t, ht, -⟩ := hs.outs
          refine (announced_active hok w2 ?_).after (t := t) ?_
          · exact notActive_steps hs (by decide) hn1
          · rw [ht, ho, List.append_nil]
        · exact fun ha => absurd ha hn1
  | init =>
    have hd := disc_pre c rx w
    have hist : (preProcess c rx w).2.v.ist = w.v.ist := congrArg Disc.ist hd
    by_cases hw : w.v.ist = .probeWait ∧ (disc w).running = false
    · have hr : (disc (preProcess c rx w).2).running = false := by rw [hd]; exact hw.2
      rw [process_init hst] at ha ⊢
      generalize (preProcess c rx w).2 = w1 at *
      unfold Core.stateInit at ha ⊢
      rw [bind_run, get_run] at ha ⊢
      dsimp only at ha ⊢
      rw [hist, hw.1] at ha ⊢
      dsimp only at ha ⊢
      rw [bind_run, timerRunning_run] at ha ⊢
      dsimp only at ha ⊢
      have hr : (w1.tm.ok .main && w1.tm.rem .main != 0) = false := hr
      rw [hr, if_pos rfl, bind_run, writeNick_run] at ha ⊢
      dsimp only at ha ⊢
      refine (announced_active hok _ ?_).after (t := [.psW (Ps.addrNickname c) w1.v.probe]) ?_
      · exact hn1
      · rw [ho, List.append_nil]
    · exact absurd ha (Nickname.init_nick c rx w hst fun h1 => by
        cases hb : (disc w).running with
        | true => rfl
        | false => exact absurd ⟨h1, hb⟩ hw).2

/-! ### The nickname of an active node -/

/-- An active node has the nickname `n`, or none. -/
def Keeps (n : U8) (w : W) : Prop := w.v.st = .active → w.v.nick = n ∨ w.v.nick = 0xFF

theorem Keeps.step {c : Ctx} {n : U8} {a : Act} {w w' : W} (hst : Step c True a w w') (ha : a ≠ .nick) (ha' : a ≠ .st .active) (h : Keeps n w) :
    Keeps n w' := by
  intro hact
  by_cases hr : a = .restore
  · subst hr
    have e : w' = (Core.restoreFactoryDefaultSettings c w).2 := hst
    rw [e, restore_run]
    exact .inr rfl
  by_cases hv : a = .initVars
  · subst hv
    obtain ⟨r, e⟩ := hst
    rw [e] at hact
    cases hact
  have hn : w'.v.nick = w.v.nick := hst.same .nick (by cases a <;> first | exact absurd rfl ha | exact absurd rfl hr | exact absurd rfl hv | rfl)
  rw [hn]
  refine h ?_
  by_cases hs : ∃ s, a = .st s
  · obtain ⟨s, rfl⟩ := hs
    have e : w' = { w with v := { w.v with st := s }, out := w.out ++ lampCalls s } := hst.2
    rw [e] at hact
    have hact : s = .active := hact
    exact absurd (by rw [hact]) ha'
  · have e : w'.v.st = w.v.st := hst.same .st (by cases a <;> first | exact absurd rfl hv | exact absurd ⟨_, rfl⟩ hs | rfl)
    exact e.symm.trans hact

theorem Keeps.steps {c : Ctx} {n : U8} {A : List Act} {w w' : W} (hs : Steps c True A w w') (hA : A.all (fun a => a ≠ .nick ∧ a ≠ .st .active) = true)
    (h : Keeps n w) : Keeps n w' :=
  hs.inv (P := Keeps n) (fun a ha _ _ hst hV => by
    have := of_decide_eq_true (List.all_eq_true.mp hA a ha)
    exact Keeps.step hst this.1 this.2 hV) h

theorem Keeps.of_not {n : U8} {w : W} (h : w.v.st ≠ .active) : Keeps n w := fun e => absurd e h

theorem Keeps.changeInit (c : Ctx) (b : Bool) {n : U8} {w : W} (h : Keeps n w) : Keeps n (Core.changeToStateInit c b w).2 := by
  by_cases hi : w.v.st = .init
  · rw [changeInit_same c b w hi]; exact h
  · exact .of_not (by rw [(changeInit_run c b w hi).1]; decide)

theorem Keeps.guid (c : Ctx) (m : Msg) {n : U8} {w : W} (h : Keeps n w) : Keeps n (Core.handleGuidDropNickname c m w).2 := by
  have heff : ∀ u : W, Keeps n u → Keeps n (GuidDrop.effect c u).2 := by
    intro u hu
    unfold GuidDrop.effect
    rw [bind_run, get_run]
    dsimp only
    rw [ite_run]
    split
    · unfold Core.startNodeSegmentInit
      rw [bind_run, get_run, whenM_run]
      split
      · exact hu.changeInit c true
      · exact hu
    · rw [bind_run]
      exact .of_not (by rw [(Nickname.reset_st 0 _).1]; decide)
  by_cases hm : m.size = 5 ∧ m.data[0].toNat < 4
  · rw [GuidDrop.handle_run c m w hm]
    split
    · split
      · exact heff _ h
      · exact h
    · exact h
  · unfold Core.handleGuidDropNickname
    rw [whenM_run, if_neg hm]
    exact h

theorem Keeps.heartbeat (c : Ctx) (m : Msg) {n : U8} {w : W} (h : Keeps n w) : Keeps n (Core.handleHeartbeat c m w).2 := by
  unfold Core.handleHeartbeat
  rw [whenM_run]
  split
  · rw [bind_run]
    have e : (Ps.readSegCrc c w).2 = w := rfl
    rw [e, bind_run]
    have hf : Foot c True [.epochSet, .timeUpdate] (whenM (5 ≤ m.size.toNat) (do
        setV fun v => { v with epoch := Core.epochOf m }
        whenM c.segTimeCallout (emit (.timeUpdate (Core.epochOf m))))) := by
      refine .whenM fun _ => ?_
      exact .bind (.one (a := .epochSet) (by decide) fun w => ⟨_, rfl⟩) fun _ => .whenM fun _ =>
        .one (a := .timeUpdate) (by decide) fun w => ⟨_, rfl⟩
    refine Keeps.steps (hf _) (by decide) ?_
    rw [whenM_run]
    split
    · rw [bind_run, bind_run, get_run, whenM_run]
      have hk : Keeps n (Ps.writeSegCrc c m.data[0] w).2 := h
      split
      · exact hk.changeInit c true
      · exact hk
    · exact h
  · exact h

theorem Keeps.drop (c : Ctx) (m : Msg) {n : U8} {w : W} (h : Keeps n w) : Keeps n (Core.handleDropNicknameId c m w).2 := by
  unfold Core.handleDropNicknameId
  rw [bind_run, get_run, whenM_run]
  dsimp only
  split
  · rw [ite_run]
    split
    · rw [bind_run]
      exact .of_not (by rw [(Nickname.reset_st 0 _).1]; decide)
    · rw [ite_run]
      split
      · rw [bind_run, ite_run]
        split
        · exact .of_not (by rw [(Nickname.reset_st _ _).1]; decide)
        · rw [ite_run]
          split
          · rw [bind_run]
            exact .of_not (by rw [(Nickname.idle_st c _).1]; decide)
          · rw [bind_run]
            exact .of_not (by rw [(Nickname.reset_st _ _).1]; decide)
      · exact h
  · exact h

theorem Keeps.handler (c : Ctx) (m : Msg) {n : U8} {w : W} (hm : m.typ ≠ 6) (h : Keeps n w) :
    Keeps n (Core.handleProtocolClassType c m w).2 := by
  by_cases h1 : m.typ.toNat = 1
  · rw [handler1 (ofToNat h1 rfl), whenM_run]
    split
    · exact h.heartbeat c m
    · exact h
  by_cases h3 : m.typ.toNat = 3
  · rw [handler3 (ofToNat h3 rfl)]
    unfold Core.handleProbeAck
    rw [bind_run, get_run, whenM_run]
    split
    · exact h.changeInit c true
    · exact h
  by_cases h6 : m.typ.toNat = 6
  · exact absurd (ofToNat h6 rfl) hm
  by_cases h8 : m.typ.toNat = 8
  · rw [handler8 (ofToNat h8 rfl)]; exact h.drop c m
  by_cases h23 : m.typ.toNat = 23
  · rw [handler23 (ofToNat h23 rfl)]; exact h.guid c m
  exact Keeps.steps (Nickname.otherV (c := c) (m := m) (by simp [h1, h3, h6, h8, h23]) w) (by decide) h

/-- A cycle of an active node, in which no nickname is assigned. -/
theorem Keeps.cycle {c : Ctx} {rx : Option Msg} {w : W} (ha : w.v.st = .active)
    (hm : ∀ m, (readMessage c rx w).1 = some m → ¬(m.cls = 0 ∧ m.typ = 6)) : Keeps w.v.nick (Core.process c rx w).2 := by
  by_cases hex : ∃ m, m.cls = 0 ∧ Takes c rx w m
  · obtain ⟨m, hm0, htk⟩ := hex
    obtain ⟨w1, t1, -, -, hs, htail⟩ := takes_cycle htk hm0
    have hn1 : w1.v.nick = w.v.nick := hs .nick (by decide)
    exact Keeps.steps htail.steps (by decide) (Keeps.handler c m (fun h => hm m htk.2.1 ⟨hm0, h⟩) fun _ => .inl hn1)
  · obtain ⟨w1, t1, -, -, hs, htail⟩ := other_cycle (c := c) (rx := rx) ha (fun m hm htk => hex ⟨m, hm, htk⟩)
    exact Keeps.steps htail.steps (by decide) fun _ => .inl (hs .nick (by decide))

theorem Keeps.op {c : Ctx} {op : Op} (hp : ∀ rx, op ≠ .process rx) (w : W) : Keeps w.v.nick (stepOp c op w).2 := by
  by_cases hs : op = .startNodeSegmentInit
  · subst hs
    show Keeps w.v.nick (Core.startNodeSegmentInit c w).2
    unfold Core.startNodeSegmentInit
    rw [bind_run, get_run, whenM_run]
    split
    · exact Keeps.changeInit c true fun _ => .inl rfl
    · exact fun _ => .inl rfl
  · refine Keeps.steps (op_steps c op hp w) ?_ fun _ => .inl rfl
    cases op <;> first | exact absurd rfl (hp _) | exact absurd rfl hs | decide | rfl

/-- The answer of another node with the own nickname makes the node look for another one. -/
theorem ack_leaves {c : Ctx} {rx : Option Msg} {w : W} {m : Msg} (h : Takes c rx w m) (hm : IsAck m w.v.nick) :
    (Core.process c rx w).2.v.st = .init := by
  obtain ⟨w1, t1, -, -, hs, htail⟩ := takes_cycle h hm.1
  have hn1 : w1.v.nick = w.v.nick := hs .nick (by decide)
  have hst1 : w1.v.st = .active := (hs .st (by decide)).trans h.1
  have e : (Core.handleProtocolClassType c m w1).2.v.st = .init := by
    rw [handler3 hm.2.1]
    unfold Core.handleProbeAck
    rw [bind_run, get_run, whenM_run, if_pos ⟨hm.2.2.1, by rw [hn1, hm.2.2.2]⟩]
    exact (changeInit_run c true w1 (by rw [hst1]; decide)).1
  exact (htail.steps.same .st (by decide)).trans e

/-! ### Probing -/

/-- A node which starts to wait for the answer to a probe has sent it; one which goes on waiting has not received the answer. -/
theorem cycle_awaits {c : Ctx} (hok : ∀ n, c.txOk n = true) {rx : Option Msg} {w : W} {q : U8} (h : awaits (Core.process c rx w).2 q) :
    (awaits w q ∧ ∀ m, (readMessage c rx w).1 = some m → ¬IsAck m q) ∨
    ∃ f, IsProbe f q ∧ f ∈ framesSent w (Core.process c rx w).2 := by
  obtain ⟨h1, h2, h3⟩ := h
  by_cases hst : w.v.st = .init
  · cases hi : w.v.ist with
    | probeMaster =>
      rcases cycle_probeMaster c rx w hst hi with ⟨-, -, hd⟩ | ⟨-, -, hd⟩
      · have := congrArg Disc.ist hd
        rw [show (disc (Core.process c rx w).2).ist = .probeWait from h2, show (disc w).ist = .probeMaster from hi] at this
        cases this
      · have := congrArg Disc.ist hd
        rw [show (disc (Core.process c rx w).2).ist = .probeWait from h2] at this
        cases this
    | probeMasterWait =>
      obtain ⟨-, ⟨-, hd⟩ | ⟨-, hd | hd⟩⟩ := cycle_probeMasterWait c rx w hst hi
      · have := congrArg Disc.ist hd
        rw [show (disc (Core.process c rx w).2).ist = .probeWait from h2] at this
        cases this
      · have := congrArg Disc.st hd
        rw [show (disc (Core.process c rx w).2).st = .init from h1] at this
        cases this
      · have := congrArg Disc.ist hd
        rw [show (disc (Core.process c rx w).2).ist = .probeWait from h2, show (disc w).ist = .probeMasterWait from hi] at this
        cases this
    | probeWait =>
      left
      rcases cycle_probeWait c rx w hst hi with ⟨-, ha, -⟩ | ⟨-, -, ⟨-, hd⟩ | ⟨hn, hd⟩⟩
      · rw [ha] at h1; cases h1
      · have := congrArg Disc.ist hd
        rw [show (disc (Core.process c rx w).2).ist = .probeWait from h2] at this
        cases this
      · have hp : (disc (Core.process c rx w).2).probe = w.v.probe := congrArg Disc.probe hd
        have hp : w.v.probe = q := hp.symm.trans h3
        refine ⟨⟨hst, hi, hp⟩, fun m hr hm => hn ⟨m, hr, ?_⟩⟩
        rw [hp]
        exact ⟨hm.1, hm.2.1, hm.2.2.2⟩
    | probe =>
      right
      have hd := disc_pre c rx w
      have ho := pre_out c rx w
      have hist : (preProcess c rx w).2.v.ist = .probe := (congrArg Disc.ist hd).trans hi
      have hpr : (preProcess c rx w).2.v.probe = w.v.probe := congrArg Disc.probe hd
      have hq : w.v.probe = q := by
        rcases cycle_probe c rx w hst hi with ⟨-, -, hd⟩ | ⟨-, -, ⟨-, h⟩ | ⟨-, hd⟩⟩
        · have := congrArg Disc.ist hd
          rw [show (disc (Core.process c rx w).2).ist = .probeWait from h2, show (disc w).ist = .probe from hi] at this
          cases this
        · rw [h] at h1; cases h1
        · have hp : (disc (Core.process c rx w).2).probe = w.v.probe := congrArg Disc.probe hd
          exact hp.symm.trans h3
      rw [process_init hst]
      generalize (preProcess c rx w).2 = w1 at *
      unfold Core.stateInit
      rw [bind_run, get_run]
      dsimp only
      rw [hist]
      dsimp only
      rw [bind_run, tx_run _ _ _ _ (by simp)]
      dsimp only
      refine ⟨_, isProbe_event c w1.v.nick 7 q, ?_⟩
      have hf : Foot c True [.tm .main, .st .idle, .idleEntered, .ist] (whenM (c.txOk w1.out.length = true) (
          if w1.v.probe = Core.NOT_INIT then do
            timerStop .main
            Core.changeToStateIdle c
          else do
            setV fun v => { v with ist := .probeWait }
            timerStart .main c.probeAckTimeout)) := .whenM fun _ => .ite (fun _ => .bind (.timerStop (by decide)) fun _ => .changeToStateIdle (by decide))
              fun _ => .bind (.one (a := .ist) (by decide) fun w => ⟨_, _, rfl⟩) fun _ => .timerStart _ (by decide)
      obtain ⟨t, ht, -⟩ := (hf (sent c (frame c w1 7 2 [w1.v.probe]) w1)).outs
      refine framesSent_mem (t := [.tx (frame c w1 7 2 [w1.v.probe]) true] ++ t) ?_ ?_
      · rw [ht, sent_out, hok, ho, List.append_assoc]
      · rw [hpr, hq]; simp
  · exfalso
    by_cases hpa : w.v.st = .preActive
    · rcases cycle_preActive c rx w hpa with ⟨-, -, hd⟩ | ⟨-, ha | ⟨-, hd⟩⟩
      · have := congrArg Disc.ist hd
        rw [show (disc (Core.process c rx w).2).ist = .probeWait from h2] at this
        cases this
      · rw [ha] at h1; cases h1
      · have := congrArg Disc.st hd
        rw [show (disc (Core.process c rx w).2).st = .init from h1, show (disc w).st = .preActive from hpa] at this
        cases this
    · have := Discovery.K_cycle c rx w hst hpa h1
      rw [h2] at this
      cases this

theorem op_awaits {c : Ctx} {op : Op} (hp : ∀ rx, op ≠ .process rx) {w : W} {q : U8} (h : awaits (stepOp c op w).2 q) :
    awaits w q ∧ ∀ ok, op ≠ .init ok := by
  obtain ⟨h1, h2, h3⟩ := h
  rcases Discovery.op_look c op w hp with (h | ⟨h, -⟩) | ⟨hi, e1, e2, e3, -⟩
  · exact absurd (.inl h1) h
  · rw [h2] at h; cases h
  · exact ⟨⟨e1 ▸ h1, e2 ▸ h2, e3 ▸ h3⟩, hi⟩

end Vscp
