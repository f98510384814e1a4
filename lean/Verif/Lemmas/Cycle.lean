/-
Cycles of an active node: the event, and what follows.
-/
import Verif.Lemmas.Window

namespace Vscp
open M Spec Transport

/-- What follows the handling of an event in a cycle: the decision matrix, the heartbeat, and the next response of an extended
page read. -/
structure Tail (c : Ctx) (w w' : W) : Prop where
  steps : Steps c True afterActs w w'
  sends : ∃ t, w'.out = w.out ++ t ∧ ∀ f ∈ frames t, (f.cls = 20 ∧ f.typ = 9 ∧ f.oAddr = w.v.nick) ∨
    (f.cls = 0 ∧ f.typ = 39 ∧ f.oAddr = w.v.nick ∧ 0 < w.v.ext.count.toNat)
  quiet : w.v.ext.count.toNat = 0 → Steps c True [.ngVars, .action, .ub, .customHb, .tx, .tm .heartbeat] w w'

theorem Tail.hbExt (c : Ctx) (w : W) : Tail c w (Core.activeExtRead c (Core.activeHeartbeat c w).2).2 := by
  have hst : Steps c True afterActs w (Core.activeExtRead c (Core.activeHeartbeat c w).2).2 :=
    Steps.trans (Foot.mono .activeHeartbeat (by decide) _) (Foot.mono .activeExtRead (by decide) _)
  obtain ⟨t, tp, tm, ub, hh, hf, -⟩ := activeHeartbeat_frame c w
  have hhb : ∀ f ∈ frames t, (f.cls = 20 ∧ f.typ = 9 ∧ f.oAddr = w.v.nick) ∨
      (f.cls = 0 ∧ f.typ = 39 ∧ f.oAddr = w.v.nick ∧ 0 < w.v.ext.count.toNat) := fun f h => .inl (hf f h)
  by_cases hc : 0 < w.v.ext.count.toNat
  · have e : (Core.activeExtRead c (Core.activeHeartbeat c w).2).2 = (Core.extendedPageReadRegister c (Core.activeHeartbeat c w).2).2 := by
      unfold Core.activeExtRead
      rw [bind_run, get_run]
      simp only [ite_run]
      rw [if_pos (by rw [hh]; exact hc)]
      rfl
    refine ⟨hst, ?_, fun h => absurd hc (by omega)⟩
    rw [e]
    obtain ⟨t2, vs, txe, hr, hf2, -, -⟩ := extRead_run c (Core.activeHeartbeat c w).2 (by rw [hh]; exact hc)
    rw [hr, hh]
    refine ⟨t ++ (t2 ++ [.tx (extFrame c w.v.nick w.v.ext vs) (c.txOk (w.out ++ (t ++ t2)).length)]),
      by simp only [List.append_assoc], ?_⟩
    intro f hfm
    rw [frames_append, frames_append, hf2, List.nil_append] at hfm
    rcases List.mem_append.mp hfm with h | h
    · exact hhb f h
    · simp only [frames, List.filterMap_cons, List.filterMap_nil, List.mem_singleton] at h
      subst h
      exact .inr ⟨rfl, rfl, rfl, hc⟩
  · have e : (Core.activeExtRead c (Core.activeHeartbeat c w).2).2 = (Core.activeHeartbeat c w).2 := by
      unfold Core.activeExtRead
      rw [bind_run, get_run]
      simp only [ite_run]
      rw [if_neg (by rw [hh]; exact hc)]
      rfl
    refine ⟨hst, ?_, fun _ => ?_⟩
    · rw [e, hh]; exact ⟨t, rfl, hhb⟩
    · rw [e]; exact Foot.mono .activeHeartbeat (by decide) w

theorem Tail.afterEvent (c : Ctx) (m : Msg) (w : W) : Tail c w (afterEvent c m w).2 := by
  have e : (Vscp.afterEvent c m w).2 = (Core.activeExtRead c (Core.activeHeartbeat c ((runActions c m) w).2).2).2 := rfl
  obtain ⟨t, dm, ub, h1, h1f⟩ := actions_frame c m w
  have ht := Tail.hbExt c ((runActions c m) w).2
  rw [← e] at ht
  rw [h1] at ht
  refine ⟨Foot.afterEvent w, ?_, fun h => ?_⟩
  rotate_left
  · refine Steps.trans (Foot.mono (Foot.actions (m := m)) (by decide) w) ?_
    have := ht.quiet h
    rw [← h1] at this
    exact this
  obtain ⟨t2, h2, h2f⟩ := ht.sends
  refine ⟨t ++ t2, by rw [h2, List.append_assoc], ?_⟩
  rw [frames_append, frames_actions h1f, List.nil_append]
  exact h2f

/-- A cycle of an active node, in parts. -/
theorem active_parts_cycle {c : Ctx} {rx : Option Msg} {w : W} (ha : w.v.st = .active) :
    ∃ w2, Handles c rx w w2 ∧
      (((readMessage c rx w).1 = none ∧ (Core.process c rx w).2 = (Core.activeExtRead c (Core.activeHeartbeat c w2).2).2) ∨
        ∃ m, (readMessage c rx w).1 = some m ∧ (m.cls ≠ 0 → w2 = addOut (.event m) (preProcess c rx w).2) ∧
          (Core.process c rx w).2 = (afterEvent c m w2).2) := by
  have hst : (preProcess c rx w).2.v.st = .active := (pre_same c rx w .st (by decide)).trans ha
  cases hr : (readMessage c rx w).1 with
  | none =>
    refine ⟨(preProcess c rx w).2, .other (by simp [hr]) (.refl _), ?_⟩
    rw [process_split, preProcess_rx, hr]
    generalize (preProcess c rx w).2 = w1 at hst
    have hd : (Core.dispatch c none w1).2 = (Core.activeExtRead c (Core.activeHeartbeat c w1).2).2 := by
      unfold Core.dispatch
      rw [bind_run, get_run]
      simp only [hst]
      rfl
    rw [hd]
    exact .inl ⟨rfl, rfl⟩
  | some m =>
    by_cases hm : m.cls = 0
    · by_cases hn : c.protoNotify = true → c.protoHandled w.out.length = false
      · refine ⟨_, .handler m hr hm hn rfl, ?_⟩
        rw [process_protocol ha (by rw [preProcess_rx, hr]) hm (by rw [pre_out]; exact hn)]
        exact .inr ⟨m, rfl, fun h => absurd hm h, rfl⟩
      · have hn' : c.protoNotify = true ∧ c.protoHandled w.out.length = true := by
          simpa using hn
        refine ⟨addOut (.protoEvent m true) (preProcess c rx w).2, .other (fun _ _ _ => hn') (.one (a := .protoEvent) (by decide) ⟨_, _, rfl⟩), ?_⟩
        have ho := pre_out c rx w
        rw [process_split, preProcess_rx, hr]
        generalize (preProcess c rx w).2 = w1 at *
        have hd : (Core.dispatch c (some m) w1).2 = (afterEvent c m (addOut (.protoEvent m true) w1)).2 := by
          unfold Core.dispatch
          rw [bind_run, get_run]
          simp only [hst]
          unfold Core.stateActive Core.activeEventOpt Core.activeEvent afterEvent
          dsimp only
          rw [if_pos (show m.cls = Transport.CLASS_PROTOCOL from hm), if_pos hn'.1]
          simp only [bind_run, get_run, emit_run, whenM_run, ho, hn'.2, pure_run, addOut]
          rfl
        rw [hd]
        exact .inr ⟨m, rfl, fun h => absurd hm h, rfl⟩
    · refine ⟨addOut (.event m) (preProcess c rx w).2, .other (fun m' h1 h2 => ?_) (.one (a := .event) (by decide) ⟨_, rfl⟩), ?_⟩
      · rw [hr] at h1
        simp only [Option.some.injEq] at h1
        subst h1
        exact absurd h2 hm
      · rw [process_split, preProcess_rx, hr]
        generalize (preProcess c rx w).2 = w1 at *
        have hd : (Core.dispatch c (some m) w1).2 = (afterEvent c m (addOut (.event m) w1)).2 := by
          unfold Core.dispatch
          rw [bind_run, get_run]
          simp only [hst]
          unfold Core.stateActive Core.activeEventOpt Core.activeEvent afterEvent
          dsimp only
          rw [if_neg (show ¬ m.cls = Transport.CLASS_PROTOCOL from hm)]
          rfl
        rw [hd]
        exact .inr ⟨m, rfl, fun _ => rfl, rfl⟩

/-- A cycle of an active node. -/
theorem active_cycle {c : Ctx} {rx : Option Msg} {w : W} (ha : w.v.st = .active) :
    ∃ w2, Handles c rx w w2 ∧ Tail c w2 (Core.process c rx w).2 := by
  obtain ⟨w2, h, ⟨-, e⟩ | ⟨m, -, -, e⟩⟩ := active_parts_cycle (c := c) (rx := rx) ha
  · exact ⟨w2, h, e ▸ .hbExt c _⟩
  · exact ⟨w2, h, e ▸ .afterEvent c m _⟩

/-- A cycle with a protocol event for the core. -/
theorem takes_cycle {c : Ctx} {rx : Option Msg} {w : W} {m : Msg} (h : Takes c rx w m) (hm : m.cls = 0) :
    ∃ w1 t1, w1.out = w.out ++ t1 ∧ (∀ o ∈ t1, ∃ b, o = .protoEvent m b) ∧
      (∀ k : Comp, [Comp.epoch, .tm .epoch, .lb, .rx, .lg].contains k = false → k.same w w1) ∧
      Tail c (Core.handleProtocolClassType c m w1).2 (Core.process c rx w).2 := by
  obtain ⟨ha, hr, hn⟩ := h
  obtain ⟨t1, ht1, ho⟩ := notified_out c m (preProcess c rx w).2
  rw [pre_out] at ht1
  refine ⟨notified c m (preProcess c rx w).2, t1, ht1, ho, fun k hk => ?_, ?_⟩
  · exact Comp.same_trans (pre_same c rx w k hk) (notified_same c m _ k)
  · rw [process_protocol ha (by rw [preProcess_rx, hr]) hm (by rw [pre_out]; exact hn)]
    exact .afterEvent c m _

theorem frames_proto {m : Msg} {t : List Out} (h : ∀ o ∈ t, ∃ b, o = .protoEvent m b) : frames t = [] := by
  unfold frames
  rw [List.filterMap_eq_nil_iff]
  intro o ho
  obtain ⟨b, rfl⟩ := h o ho
  rfl

/-- Without a protocol event for the core only the `Tail` follows. -/
theorem other_cycle {c : Ctx} {rx : Option Msg} {w : W} (ha : w.v.st = .active) (h : ∀ m, m.cls = 0 → ¬ Takes c rx w m) :
    ∃ w1 t1, w1.out = w.out ++ t1 ∧ (∀ o ∈ t1, (∃ m b, o = .protoEvent m b) ∨ ∃ m, o = .event m) ∧
      (∀ k : Comp, [Comp.epoch, .tm .epoch, .lb, .rx, .lg].contains k = false → k.same w w1) ∧
      Tail c w1 (Core.process c rx w).2 := by
  obtain ⟨w2, h1, h2⟩ := active_cycle (c := c) (rx := rx) ha
  cases h1 with
  | handler m hr hm hn h' => exact absurd ⟨ha, hr, hn⟩ (h m hm)
  | other _ hs =>
    obtain ⟨t, ht, ho⟩ := hs.outs
    rw [pre_out] at ht
    refine ⟨w2, t, ht, ?_, fun k hk => Comp.same_trans (pre_same c rx w k hk) (hs.same k ?_), h2⟩
    · intro o hm
      obtain ⟨a, ha, he⟩ := ho o hm
      simp only [List.mem_cons, List.not_mem_nil, or_false] at ha
      rcases ha with rfl | rfl
      · exact .inl he
      · exact .inr he
    · cases k <;> rfl

/-- A cycle of a node which is not active. -/
theorem inactive_cycle {c : Ctx} {rx : Option Msg} {w : W} (hst : w.v.st ≠ .active) :
    Steps c True inactiveActs (preProcess c rx w).2 (Core.process c rx w).2 := by
  rw [process_split]
  exact inactive_dispatch (fun h => hst ((pre_same c rx w .st (by decide)).symm.trans h))

/-! ### Calls of a function -/

/-- All calls made by `m` satisfy `P`. -/
def Calls {α : Type} (P : Out → Prop) (m : M α) : Prop := ∀ w, ∃ t, (m w).2.out = w.out ++ t ∧ ∀ o ∈ t, P o

section
variable {α β : Type} {P : Out → Prop} {c : Ctx}

theorem Calls.pure (a : α) : Calls P (pure a : M α) := fun w => ⟨[], by simp, by simp⟩
theorem Calls.get : Calls P M.get := fun w => ⟨[], by simp, by simp⟩
theorem Calls.bind {m : M α} {f : α → M β} (h : Calls P m) (h' : ∀ a, Calls P (f a)) : Calls P (m >>= f) := by
  intro w
  obtain ⟨t, h1, h2⟩ := h w
  obtain ⟨t', h1', h2'⟩ := h' (m w).1 (m w).2
  exact ⟨t ++ t', by rw [bind_run, h1', h1, List.append_assoc], fun o ho => (List.mem_append.mp ho).elim (h2 o) (h2' o)⟩
theorem Calls.whenM {p : Prop} [Decidable p] {m : M Unit} (h : p → Calls P m) : Calls P (whenM p m) := by
  intro w
  rw [whenM_run]
  split
  · rename_i hp; exact h hp w
  · exact ⟨[], by simp, by simp⟩
theorem Calls.ite {p : Prop} [Decidable p] {a b : M α} (h : p → Calls P a) (h' : ¬p → Calls P b) : Calls P (if p then a else b) := by
  split
  · rename_i hp; exact h hp
  · rename_i hp; exact h' hp
theorem Calls.setV (f : Vars → Vars) : Calls P (setV f) := fun w => ⟨[], by simp, by simp⟩
theorem Calls.emit {o : Out} (h : P o) : Calls P (emit o) := fun w => ⟨[o], rfl, by simpa using h⟩
theorem Calls.of_foot {A : List Act} {m : M α} (hf : Foot c True A m) (h : ∀ a ∈ A, ∀ o, a.emits c o → P o) : Calls P m := by
  intro w
  obtain ⟨t, h1, h2⟩ := Steps.outs (hf w)
  refine ⟨t, h1, fun o ho => ?_⟩
  obtain ⟨a, ha, he⟩ := h2 o ho
  exact h a ha o he
theorem Calls.mono {Q : Out → Prop} {m : M α} (h : Calls P m) (hPQ : ∀ o, P o → Q o) : Calls Q m := by
  intro w
  obtain ⟨t, h1, h2⟩ := h w
  exact ⟨t, h1, fun o ho => hPQ o (h2 o ho)⟩

end

/-! ### Frames of the handlers -/

/-- A call which is no transmission and no request of the boot loader, or the transmission of a protocol frame of the given types. -/
def Resp (T : List U8) (o : Out) : Prop := (∀ f ok, o = .tx f ok → f.cls = 0 ∧ f.typ ∈ T) ∧ o ≠ .bootLoaderRequest

section
variable {α : Type} {c : Ctx} {T : List U8}

/-- The step neither transmits nor requests the boot loader. -/
def Act.silent : Act → Bool
  | .tx | .userTx _ | .bootReq => false
  | _ => true

theorem Calls.silent {A : List Act} {m : M α} (hf : Foot c True A m) (h : A.all Act.silent = true) : Calls (Resp T) m := by
  refine .of_foot hf fun a ha o ho => ?_
  have hs := List.all_eq_true.mp h a ha
  cases a <;> simp only [Act.silent, Bool.false_eq_true] at hs <;> simp only [Act.emits] at ho
  all_goals (refine ⟨fun f ok h => ?_, fun h => ?_⟩ <;> (subst h; simp at ho))

theorem Calls.write (m : Msg) (hm : m.cls = 0 ∧ m.typ ∈ T) : Calls (Resp T) (writeMessage c m) := by
  intro w
  obtain ⟨tp, ub, t, ht, hc⟩ := writeMessage_frame c m w
  rw [ht]
  refine ⟨t, rfl, ?_⟩
  rcases hc with rfl | ⟨rfl, -⟩
  · simp only [List.mem_singleton, forall_eq]
    refine ⟨fun f ok h => ?_, fun h => by cases h⟩
    cases h; exact hm
  · simp

theorem Calls.txVoid {prio typ : U8} {l : List U8} (h : typ ∈ T) : Calls (Resp T) (Core.txVoid c prio typ l) :=
  .bind (.bind .get fun _ => .write _ ⟨rfl, h⟩) fun _ => .pure _

theorem Calls.txFrom {nick prio typ : U8} {l : List U8} (h : typ ∈ T) : Calls (Resp T) (Core.txFrom c nick prio typ l) :=
  .bind (.write _ ⟨rfl, h⟩) fun _ => .pure _

theorem Calls.readRegister (page : U16) (addr : U8) : Calls (Resp T) (Core.readRegister c page addr) :=
  .silent (Foot.readRegister (A := [.alarm, .appRead]) (by decide)) (by decide)

theorem Calls.writeRegister (page : U16) (addr v : U8) : Calls (Resp T) (Core.writeRegister c page addr v) :=
  .silent (Foot.writeRegister (A := writeActs) (by decide)) (by decide)

theorem Calls.pageReadLoop (addr : U8) (n i : Nat) (acc : List U8) (h : 26 ∈ T) : Calls (Resp T) (Core.pageReadLoop c addr n i acc) := by
  induction n generalizing i acc with
  | zero => exact .pure _
  | succ n ih =>
    exact .bind .get fun _ => .bind (.readRegister _ _) fun _ => .ite (fun _ => .bind (.txVoid h) fun _ => ih _ _) fun _ => ih _ _

theorem Calls.dataAt (c : Ctx) (m : Msg) (i : Nat) : Calls (Resp T) (dataAt m i) :=
  .silent (Foot.dataAt (c := c) (A := [.ub]) (by decide) (fun _ => trivial)) (by decide)

theorem Calls.pageWriteLoop (m : Msg) (addr : U8) (n i : Nat) (acc : List U8) : Calls (Resp T) (Core.pageWriteLoop c m addr n i acc) := by
  induction n generalizing i acc with
  | zero => exact .pure _
  | succ n ih => exact .bind .get fun _ => .bind (.dataAt c _ _) fun _ => .bind (.writeRegister _ _ _) fun _ => ih _ _

theorem Calls.extWriteLoop (m : Msg) (page : U16) (addr : U8) (n i : Nat) (acc : List U8) :
    Calls (Resp T) (Core.extWriteLoop c m page addr n i acc) := by
  induction n generalizing i acc with
  | zero => exact .pure _
  | succ n ih => exact .bind (.dataAt c _ _) fun _ => .bind (.writeRegister _ _ _) fun _ => ih _ _

theorem Calls.whoLoop {rd : Nat → M U8} (hrd : ∀ i, Calls (Resp T) (rd i)) (l : List Nat) (acc : List U8) (row : U8) (h : 32 ∈ T) :
    Calls (Resp T) (Core.whoLoop c rd l acc row) := by
  induction l generalizing acc row with
  | nil => exact .pure _
  | cons i l ih => exact .bind (hrd i) fun _ => .ite (fun _ => .bind (.txVoid h) fun _ => ih _ _) fun _ => ih _ _

/-- The types of the frames which answer an event, class 0. -/
def responses (typ : U8) : List U8 :=
  match typ.toNat with
  | 2 => [3]
  | 6 => [7]
  | 9 | 11 | 29 | 30 => [10]
  | 12 => [14]
  | 24 | 25 => [26]
  | 31 => [32]
  | 33 => [34]
  | 37 | 38 => [39]
  | _ => []

theorem Calls.handler {m : Msg} (h12 : m.typ ≠ 12) : Calls (Resp (responses m.typ)) (Core.handleProtocolClassType c m) := by
  by_cases ht : m.typ.toNat ∈ [1, 2, 3, 6, 8, 9, 11, 12, 23, 24, 25, 29, 30, 31, 33, 37, 38]
  · simp only [List.mem_cons, List.not_mem_nil, or_false] at ht
    rcases ht with ht | ht | ht | ht | ht | ht | ht | ht | ht | ht | ht | ht | ht | ht | ht | ht | ht
    · rw [handler1 (ofToNat ht rfl)]
      exact .whenM fun _ => .silent .handleHeartbeat (by decide)
    · rw [handler2 (ofToNat ht rfl), ofToNat ht (b := 2) rfl]
      exact .bind .get fun _ => .whenM fun _ => .txVoid (by decide)
    · rw [handler3 (ofToNat ht rfl)]
      exact .silent .handleProbeAck (by decide)
    · rw [handler6 (ofToNat ht rfl), ofToNat ht (b := 6) rfl]
      exact .bind .get fun _ => .whenM fun _ => .bind (.silent (.writeNicknameId (A := [.nick]) (by decide)) (by decide)) fun _ =>
        .txVoid (by decide)
    · rw [handler8 (ofToNat ht rfl)]
      exact .silent .handleDropNicknameId (by decide)
    · rw [handler9 (ofToNat ht rfl), ofToNat ht (b := 9) rfl]
      exact .bind .get fun _ => .whenM fun _ => .bind (.readRegister _ _) fun _ => .txVoid (by decide)
    · rw [handler11 (ofToNat ht rfl), ofToNat ht (b := 11) rfl]
      exact .bind .get fun _ => .whenM fun _ => .bind (.writeRegister _ _ _) fun _ => .whenM fun _ => .txVoid (by decide)
    · exact absurd (ofToNat ht rfl) h12
    · rw [handler23 (ofToNat ht rfl)]
      exact .silent .handleGuidDropNickname (by decide)
    · rw [handler24 (ofToNat ht rfl), ofToNat ht (b := 24) rfl]
      exact .bind .get fun _ => .whenM fun _ => .bind (.pageReadLoop _ _ _ _ (by decide)) fun _ => .whenM fun _ => .txVoid (by decide)
    · rw [handler25 (ofToNat ht rfl), ofToNat ht (b := 25) rfl]
      exact .bind .get fun _ => .whenM fun _ => .bind (.pageWriteLoop _ _ _ _ _) fun _ => .txFrom (by decide)
    · rw [handler29 (ofToNat ht rfl), ofToNat ht (b := 29) rfl]
      exact .bind .get fun _ => .whenM fun _ => .bind (.readRegister _ _) fun _ => .bind (.writeRegister _ _ _) fun _ =>
        .whenM fun _ => .txVoid (by decide)
    · rw [handler30 (ofToNat ht rfl), ofToNat ht (b := 30) rfl]
      exact .bind .get fun _ => .whenM fun _ => .bind (.readRegister _ _) fun _ => .bind (.writeRegister _ _ _) fun _ =>
        .whenM fun _ => .txVoid (by decide)
    · rw [handler31 (ofToNat ht rfl), ofToNat ht (b := 31) rfl]
      refine .bind .get fun _ => .whenM fun _ => .bind (.whoLoop (fun i => ?_) _ _ _ (by decide)) fun _ =>
        .bind (.whoLoop (fun i => ?_) _ _ _ (by decide)) fun _ => .txVoid (by decide)
      · exact .silent (A := []) (.guidRead i) (by decide)
      · exact .silent (A := []) (.mdfRead i) (by decide)
    · rw [handler33 (ofToNat ht rfl), ofToNat ht (b := 33) rfl]
      exact .bind .get fun _ => .whenM fun _ => .txVoid (by decide)
    · rw [handler37 (ofToNat ht rfl), ofToNat ht (b := 37) rfl]
      refine .bind .get fun _ => .whenM fun _ => .bind (.setV _) fun _ => ?_
      unfold Core.extendedPageReadRegister Core.tx
      refine .bind .get fun _ => .whenM fun _ => .bind (.silent (.extReadLoop 4 _ _ _) (by decide)) fun _ =>
        .bind (.bind .get fun _ => .write _ ⟨rfl, (by decide : (39 : U8) ∈ responses 37)⟩) fun _ => .whenM fun _ => .setV _
    · rw [handler38 (ofToNat ht rfl), ofToNat ht (b := 38) rfl]
      exact .bind .get fun _ => .whenM fun _ => .bind (.extWriteLoop _ _ _ _ _ _) fun _ => .txFrom (by decide)
  · rw [handlerOther ht]
    exact .pure _

end

/-! ### Changes of the state -/

theorem writeNick_run (c : Ctx) (n : U8) (w : W) : Core.writeNicknameId c n w =
    ((), { w with v := { w.v with nick := n }, ps := fun x => if x = Ps.addrNickname c then n else w.ps x,
                  out := w.out ++ [.psW (Ps.addrNickname c) n] }) := by
  simp [Core.writeNicknameId, Ps.writeNickname, Ps.readNickname]

theorem reset_run (t : U8) (w : W) (h : w.v.st ≠ .reset) : Core.changeToStateReset t w =
    ((), { w with v := { w.v with st := .reset, secCnt := t }, out := w.out ++ [.lamp .off],
                  tm := { w.tm with rem := fun x => if x = .main ∧ w.tm.ok .main = true then (if t = 0 then 0 else 1000) else w.tm.rem x } }) := by
  unfold Core.changeToStateReset
  rw [bind_run, get_run]
  simp only [whenM_run, if_pos h, bind_run, emit_run, setV_run, ite_run, timerStart_run, timerStop_run]
  by_cases ht : t = 0#8
  · subst ht
    by_cases hok : w.tm.ok .main = true <;> simp [hok]
  · have : 0 < t.toNat := by
      apply Nat.pos_of_ne_zero; intro h; exact ht (BitVec.eq_of_toNat_eq h)
    by_cases hok : w.tm.ok .main = true <;> simp [hok, ht, this]

theorem idle_run (c : Ctx) (w : W) (h : w.v.st ≠ .idle) : Core.changeToStateIdle c w =
    ((), { w with v := { w.v with st := .idle }, out := w.out ++ (.lamp .off :: if c.idleCallout then [.idleEntered] else []) }) := by
  unfold Core.changeToStateIdle
  rw [bind_run, get_run]
  simp only [whenM_run, if_pos h, bind_run, emit_run, setV_run]
  split <;> simp [*]

end Vscp
