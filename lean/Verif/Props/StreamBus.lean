/-
Property theorems: an extended page read among the other traffic of the bus (C116).
-/
import Verif.Props.Stream
import Verif.Props.Wear
import Verif.Props.Alarm
import Verif.Lemmas.OpSteps
import Verif.Spec.StreamBus

namespace Vscp.StreamBus
open M Spec Transport Vscp.Stream Wear

/-- A part of the code which sends no response of an extended page read, and changes the running one only by a factory reset. -/
def Leaves (w w' : W) : Prop := ∃ t, w'.out = w.out ++ t ∧ delivered t = [] ∧ (.portRestore ∉ t → w'.v.ext = w.v.ext)

theorem Leaves.refl (w : W) : Leaves w w := ⟨[], by simp, rfl, fun _ => rfl⟩

theorem Leaves.trans {w w' w'' : W} (h : Leaves w w') (h' : Leaves w' w'') : Leaves w w'' := by
  obtain ⟨t, h1, h2, h3⟩ := h
  obtain ⟨t', h1', h2', h3'⟩ := h'
  refine ⟨t ++ t', by rw [h1', h1, List.append_assoc], by rw [delivered_append, h2, h2']; rfl, fun hn => ?_⟩
  rw [h3' fun h => hn (List.mem_append_right _ h), h3 fun h => hn (List.mem_append_left _ h)]

/-- Steps which send nothing and leave the extended page read, other than by a factory reset. -/
def _root_.Vscp.Act.leaves : Act → Bool
  | .tx | .userTx _ | .ext => false
  | _ => true

theorem leaves_step {c : Ctx} {a : Act} {w w' : W} (h : a.leaves = true) (hst : Step c True a w w') : Leaves w w' := by
  by_cases ha : a = .restore
  · subst ha
    obtain ⟨t', h1', h2'⟩ := hst.outs
    simp only [Step] at hst
    rw [restore_run] at hst
    have hm : .portRestore ∈ t' := by
      rw [hst] at h1'
      have := List.append_cancel_left h1'
      rw [← this]
      simp
    refine ⟨t', h1', delivered_of_frames ?_, fun hn => absurd hm hn⟩
    unfold frames
    rw [List.filterMap_eq_nil_iff]
    intro o ho
    have := h2' o ho
    cases o <;> simp_all [Act.emits]
  · obtain ⟨t, h1, h2⟩ := hst.outs
    refine ⟨t, h1, delivered_of_frames ?_, fun _ => ?_⟩
    · unfold frames
      rw [List.filterMap_eq_nil_iff]
      intro o ho
      have := h2 o ho
      cases o <;> cases a <;> simp_all [Act.emits, Act.leaves]
    · have := hst.same .ext (by cases a <;> first | rfl | (cases h; done) | exact absurd rfl ha)
      simpa only [Comp.same] using this

theorem leaves_steps {c : Ctx} {A : List Act} {w w' : W} (hs : Steps c True A w w') (h : A.all Act.leaves = true) : Leaves w w' :=
  hs.rel Leaves.refl (fun _ _ _ => Leaves.trans) fun a ha _ _ hst => leaves_step (List.all_eq_true.mp h a ha) hst

/-- A frame of another type. -/
theorem leaves_tx (c : Ctx) (m : Msg) (hm : ¬(m.cls = 0 ∧ m.typ = 39)) (w : W) : Leaves w (writeMessage c m w).2 := by
  obtain ⟨tp, ub, t, hw, ht⟩ := writeMessage_frame c m w
  rw [hw]
  refine ⟨t, rfl, ?_, fun _ => rfl⟩
  rcases ht with rfl | ⟨rfl, -⟩
  · unfold delivered
    cases (writeMessage c m w).1
    · rfl
    · simp only [List.filterMap_cons, if_neg hm, List.filterMap_nil]
  · rfl

/-! ### The parts of the code -/

/-- The part of the code leaves an extended page read. -/
def Lv {α : Type} (x : M α) : Prop := ∀ w, Leaves w (x w).2

section
variable {α β : Type}

theorem Lv.pure (a : α) : Lv (pure a : M α) := fun w => .refl w
theorem Lv.get : Lv M.get := fun w => .refl w
theorem Lv.bind {x : M α} {f : α → M β} (h : Lv x) (h' : ∀ a, Lv (f a)) : Lv (x >>= f) := fun w => (h w).trans (h' _ _)
theorem Lv.ite {p : Prop} [Decidable p] {x y : M α} (h : Lv x) (h' : Lv y) : Lv (if p then x else y) := by split <;> assumption
theorem Lv.whenM {p : Prop} [Decidable p] {x : M Unit} (h : Lv x) : Lv (whenM p x) := Lv.ite h (Lv.pure ())
theorem Lv.foot {c : Ctx} {A : List Act} {x : M α} (h : Foot c True A x) (hA : A.all Act.leaves = true := by decide) : Lv x :=
  fun w => leaves_steps (h w) hA

theorem Lv.tx {c : Ctx} {prio typ : U8} {l : List U8} (h : typ ≠ 39 := by decide) : Lv (Core.tx c prio typ l) := fun w =>
  leaves_tx c _ (fun hh => h hh.2) w
theorem Lv.txVoid {c : Ctx} {prio typ : U8} {l : List U8} (h : typ ≠ 39 := by decide) : Lv (Core.txVoid c prio typ l) :=
  .bind (.tx h) fun _ => .pure _
theorem Lv.txFrom {c : Ctx} {nick prio typ : U8} {l : List U8} (h : typ ≠ 39 := by decide) : Lv (Core.txFrom c nick prio typ l) := fun w =>
  leaves_tx c _ (fun hh => h hh.2) w

end

section
variable {c : Ctx}

theorem Lv.readRegister {page : U16} {addr : U8} : Lv (Core.readRegister c page addr) :=
  .foot (A := [.alarm, .appRead]) (.readRegister (by simp))

theorem Lv.writeRegister {page : U16} {addr v : U8} : Lv (Core.writeRegister c page addr v) :=
  .foot (A := writeActs) (.writeRegister (by simp))

theorem Lv.sendRsp {addr v : U8} : Lv (Core.sendRegisterReadWriteRsp c addr v) := .txVoid

theorem Lv.pageReadLoop {addr : U8} (n : Nat) : ∀ i acc, Lv (Core.pageReadLoop c addr n i acc) := by
  induction n with
  | zero => exact fun i acc => .pure _
  | succ n ih =>
    intro i acc
    unfold Core.pageReadLoop
    exact .bind .get fun w => .bind .readRegister fun v => .ite (.bind .txVoid fun _ => ih _ _) (ih _ _)

theorem Lv.dataAt (c : Ctx) {m : Msg} {i : Nat} : Lv (Vscp.dataAt m i) := .foot (c := c) (A := [.ub]) (.dataAt (by simp) fun _ => trivial)

theorem Lv.pageWriteLoop {m : Msg} {addr : U8} (n : Nat) : ∀ i acc, Lv (Core.pageWriteLoop c m addr n i acc) := by
  induction n with
  | zero => exact fun i acc => .pure _
  | succ n ih =>
    intro i acc
    unfold Core.pageWriteLoop
    exact .bind .get fun w => .bind (.dataAt c) fun x => .bind .writeRegister fun r => ih _ _

theorem Lv.whoLoop {rd : Nat → M U8} (hrd : ∀ i, Lv (rd i)) (is : List Nat) : ∀ acc row, Lv (Core.whoLoop c rd is acc row) := by
  induction is with
  | nil => exact fun acc row => .pure _
  | cons i is ih =>
    intro acc row
    unfold Core.whoLoop
    exact .bind (hrd i) fun v => .ite (.bind .txVoid fun _ => ih _ _) (ih _ _)

/-- All protocol events but extended page reads and writes for the node. -/
theorem handler_leaves {m : Msg} {w : W} (h : ¬ ((m.typ = 37 ∨ m.typ = 38) ∧ (payload m)[0]? = some w.v.nick)) :
    Leaves w (Core.handleProtocolClassType c m w).2 := by
  by_cases h37 : m.typ = 37
  · rw [handler37 h37, Core.handleExtendedPageReadRegister, bind_run, get_run, whenM_run, if_neg]
    · exact .refl _
    · exact fun hh => h ⟨.inl h37, by rw [payload_get' (by omega) (by decide), hh.2]⟩
  by_cases h38 : m.typ = 38
  · rw [handler38 h38, Core.handleExtendedPageWriteRegister, bind_run, get_run, whenM_run, if_neg]
    · exact .refl _
    · exact fun hh => h ⟨.inr h38, by rw [payload_get' (by omega) (by decide), hh.2]⟩
  suffices hs : Lv (Core.handleProtocolClassType c m) from hs w
  by_cases h1 : m.typ = 1
  · rw [handler1 h1]; exact .foot (.whenM fun _ => .handleHeartbeat)
  by_cases h2 : m.typ = 2
  · rw [handler2 h2]; exact .bind .get fun w => .whenM .txVoid
  by_cases h3 : m.typ = 3
  · rw [handler3 h3]; exact .foot .handleProbeAck
  by_cases h6 : m.typ = 6
  · rw [handler6 h6]
    exact .bind .get fun w => .whenM (.bind (.foot (A := [.nick]) (.writeNicknameId (by simp))) fun _ => .txVoid)
  by_cases h8 : m.typ = 8
  · rw [handler8 h8]; exact .foot .handleDropNicknameId
  by_cases h9 : m.typ = 9
  · rw [handler9 h9]; exact .bind .get fun w => .whenM (.bind .readRegister fun _ => .sendRsp)
  by_cases h11 : m.typ = 11
  · rw [handler11 h11]; exact .bind .get fun w => .whenM (.bind .writeRegister fun _ => .whenM .sendRsp)
  by_cases h12 : m.typ = 12
  · rw [handler12 h12]
    unfold Core.handleEnterBootLoaderMode
    refine .bind .get fun w => .whenM ?_
    by_cases hb : c.bootLoader = true
    · rw [if_pos hb]
      have hg : ∀ i, Lv (DevData.getGuid c i) := fun i => .foot (c := c) (A := []) (.guidRead i)
      exact .bind (hg _) fun _ => .bind (hg _) fun _ => .bind (hg _) fun _ => .bind (hg _) fun _ => .ite .txVoid
        (.bind (.foot (c := c) (A := [.st .idle, .idleEntered]) (.changeToStateIdle (by simp))) fun _ =>
          .bind (.foot (c := c) (A := [.boot]) (.one (a := .boot) (by simp) fun w => ⟨hb, _, rfl⟩)) fun _ =>
            .foot (c := c) (A := [.bootReq]) (.one (a := .bootReq) (by simp) fun w => rfl))
    · rw [if_neg hb]; exact .txVoid
  by_cases h23 : m.typ = 23
  · rw [handler23 h23]; exact .foot .handleGuidDropNickname
  by_cases h24 : m.typ = 24
  · rw [handler24 h24]; exact .bind .get fun w => .whenM (.bind (.pageReadLoop _ _ _) fun _ => .whenM .txVoid)
  by_cases h25 : m.typ = 25
  · rw [handler25 h25]; exact .bind .get fun w => .whenM (.bind (.pageWriteLoop _ _ _) fun _ => .txFrom)
  by_cases h29 : m.typ = 29
  · rw [handler29 h29]
    exact .bind .get fun w => .whenM (.bind .readRegister fun _ => .bind .writeRegister fun _ => .whenM .sendRsp)
  by_cases h30 : m.typ = 30
  · rw [handler30 h30]
    exact .bind .get fun w => .whenM (.bind .readRegister fun _ => .bind .writeRegister fun _ => .whenM .sendRsp)
  by_cases h31 : m.typ = 31
  · rw [handler31 h31]
    exact .bind .get fun w => .whenM (.bind (.whoLoop (fun i => .foot (c := c) (A := []) (.guidRead i)) _ _ _) fun _ =>
      .bind (.whoLoop (fun i => .foot (c := c) (A := []) (.mdfRead i)) _ _ _) fun _ => .txVoid)
  by_cases h33 : m.typ = 33
  · rw [handler33 h33]; exact .bind .get fun w => .whenM .txVoid
  rw [handlerOther]
  · exact .pure _
  · intro h
    simp only [List.mem_cons, List.not_mem_nil, or_false] at h
    have conv : ∀ k : U8, m.typ.toNat = k.toNat → m.typ = k := fun k h => BitVec.eq_of_toNat_eq h
    rcases h with h | h | h | h | h | h | h | h | h | h | h | h | h | h | h | h | h
    · exact h1 (conv _ h)
    · exact h2 (conv _ h)
    · exact h3 (conv _ h)
    · exact h6 (conv _ h)
    · exact h8 (conv _ h)
    · exact h9 (conv _ h)
    · exact h11 (conv _ h)
    · exact h12 (conv _ h)
    · exact h23 (conv _ h)
    · exact h24 (conv _ h)
    · exact h25 (conv _ h)
    · exact h29 (conv _ h)
    · exact h30 (conv _ h)
    · exact h31 (conv _ h)
    · exact h33 (conv _ h)
    · exact h37 (conv _ h)
    · exact h38 (conv _ h)

end

/-! ### A cycle -/

/-- Behind the handling of an event: the next response. -/
theorem tail_streams {c : Ctx} {rx : Option Msg} {w w2 : W}
    (h : ((readMessage c rx w).1 = none ∧ (Core.process c rx w).2 = (Core.activeExtRead c (Core.activeHeartbeat c w2).2).2) ∨
        ∃ m, (readMessage c rx w).1 = some m ∧ (m.cls ≠ 0 → w2 = addOut (.event m) (preProcess c rx w).2) ∧
          (Core.process c rx w).2 = (afterEvent c m w2).2) :
    ∃ t, Streams w2 (Core.process c rx w).2 t ∧ Progress c w2 (Core.process c rx w).2 := by
  have key : ∀ w3 : W, ∃ t, Streams w3 (Core.activeExtRead c (Core.activeHeartbeat c w3).2).2 t ∧
      Progress c w3 (Core.activeExtRead c (Core.activeHeartbeat c w3).2).2 := by
    intro w2
    obtain ⟨t3, tp3, tm3, ub3, h3, h3f, -⟩ := activeHeartbeat_frame c w2
    have h3' : Streams w2 (Core.activeHeartbeat c w2).2 t3 :=
      .quiet (by rw [h3]) (delivered_other fun m hm => by rw [(h3f m hm).1]; decide) (by rw [h3])
    have he : (Core.activeHeartbeat c w2).2.v.ext = w2.v.ext := by rw [h3]
    generalize (Core.activeHeartbeat c w2).2 = w3 at *
    obtain ⟨t4, h4, h4s, h4l, h4p⟩ := activeExtRead_streams c w3
    refine ⟨t3 ++ t4, h3'.trans h4, fun hc => ?_⟩
    have ho : w2.out.length ≤ w3.out.length := by rw [h3'.out]; simp
    obtain ⟨p1, p2⟩ := h4p (by rw [he]; exact hc)
    rw [he] at p2
    exact ⟨by omega, fun hok => p2 fun i hi => hok i (by omega)⟩
  rcases h with ⟨-, e⟩ | ⟨m, -, -, e⟩
  · rw [e]; exact key w2
  · rw [e]
    obtain ⟨t, dm, ub, h1, h1f⟩ := actions_frame c m w2
    have h1' : Streams w2 ((runActions c m) w2).2 t := .quiet (by rw [h1]) (delivered_of_frames (frames_actions h1f)) (by rw [h1])
    have he : ((runActions c m) w2).2.v.ext = w2.v.ext := by rw [h1]
    have e' : (afterEvent c m w2).2 = (Core.activeExtRead c (Core.activeHeartbeat c ((runActions c m) w2).2).2).2 := rfl
    rw [e']
    generalize ((runActions c m) w2).2 = w3 at *
    obtain ⟨t4, h4, h4p⟩ := key w3
    refine ⟨t ++ t4, h1'.trans h4, fun hc => ?_⟩
    have ho : w2.out.length ≤ w3.out.length := by rw [h1'.out]; simp
    obtain ⟨p1, p2⟩ := h4p (by rw [he]; exact hc)
    rw [he] at p2
    exact ⟨by omega, fun hok => p2 fun i hi => hok i (by omega)⟩

/-- The handling of an event which is not another extended page read or write. -/
theorem handles_leaves {c : Ctx} {rx : Option Msg} {w w2 : W} (ha : w.v.st = .active) (h : Handles c rx w w2)
    (hn : ∀ m, Takes c rx w m → ¬ AnotherExt w m) : Leaves w w2 := by
  have hpre : Leaves w (preProcess c rx w).2 := by
    have := pre_same c rx w .ext (by decide)
    simp only [Comp.same] at this
    exact ⟨[], by rw [pre_out]; simp, rfl, fun _ => this⟩
  refine hpre.trans ?_
  cases h with
  | other h hs => exact leaves_steps hs (by decide)
  | handler m hr hm hn' h =>
    subst h
    have hnick := pre_same c rx w .nick (by decide)
    simp only [Comp.same] at hnick
    have hx := hn m ⟨ha, hr, hn'⟩
    generalize (preProcess c rx w).2 = w1 at *
    have hno : Leaves w1 (notified c m w1) := by
      unfold notified
      split
      · exact leaves_step (c := c) (a := .protoEvent) rfl ⟨_, _, rfl⟩
      · exact .refl _
    have hnn : (notified c m w1).v.nick = w.v.nick := by
      rw [← hnick]; unfold notified; split <;> rfl
    refine hno.trans (handler_leaves fun hh => hx ⟨hm, hh.1, ?_⟩)
    rw [hh.2, hnn]

theorem Leaves.streams {w w' : W} (h : Leaves w w') (hf : ¬ factoryReset w w') : ∃ t, Streams w w' t ∧ w'.v.ext = w.v.ext := by
  obtain ⟨t, h1, h2, h3⟩ := h
  rw [factory_of h1] at hf
  exact ⟨t, .quiet h1 h2 (h3 hf), h3 hf⟩

theorem cycle {c : Ctx} {rx : Option Msg} {w : W} (ha : w.v.st = .active) (hn : ∀ m, Takes c rx w m → ¬ AnotherExt w m)
    (hf : ¬ factoryReset w (Core.process c rx w).2) : ∃ t, Streams w (Core.process c rx w).2 t ∧ Progress c w (Core.process c rx w).2 := by
  obtain ⟨w2, hh, htail⟩ := active_parts_cycle (c := c) (rx := rx) ha
  obtain ⟨t, h1, h2, h3⟩ := handles_leaves ha hh hn
  obtain ⟨t', h4, h5⟩ := tail_streams htail
  rw [factory_of (show (Core.process c rx w).2.out = w.out ++ (t ++ t') by rw [h4.out, h1, List.append_assoc])] at hf
  have he := h3 fun h => hf (List.mem_append_left _ h)
  have h6 : Streams w w2 t := .quiet h1 h2 he
  refine ⟨t ++ t', h6.trans h4, fun hc => ?_⟩
  have ho : w.out.length ≤ w2.out.length := by rw [h1]; simp
  obtain ⟨p1, p2⟩ := h5 (by rw [he]; exact hc)
  rw [he] at p2
  exact ⟨by omega, fun hok => p2 fun i hi => hok i (by omega)⟩

/-- Any call but a cycle. -/
theorem op_leaves {c : Ctx} {op : Op} {w : W} (hp : ¬ ∃ rx, op = .process rx) (hs : ∀ m, op = .sendEvent m → ¬(m.cls = 0 ∧ m.typ = 39)) :
    Leaves w (stepOp c op w).2 := by
  have h := op_steps c op (fun rx h => hp ⟨rx, h⟩) w
  have hlog : ∀ id level msg, Leaves w (Logger.log c id level msg w).2 := by
    intro id level msg
    obtain ⟨t, tp, ub, h1, h2, -⟩ := log_frame c id level msg w
    rw [h1]
    exact ⟨t, rfl, delivered_other fun m hm => by rw [h2 m hm]; decide, fun _ => rfl⟩
  cases op with
  | process rx => exact absurd ⟨rx, rfl⟩ hp
  | sendEvent m => exact leaves_tx c m (hs m rfl) w
  | log id level msg => exact hlog id level msg
  | logUInt32 id level x => exact hlog _ _ _
  | _ => exact leaves_steps h (by simp [opActs, Act.leaves])

/-- Any call. -/
theorem op_streams {c : Ctx} {op : Op} {w : W} (ha : w.v.st = .active) (hf : ¬ factoryReset w (stepOp c op w).2)
    (hn : ∀ rx m, op = .process rx → Takes c rx w m → ¬ AnotherExt w m) (hs : ∀ m, op = .sendEvent m → ¬(m.cls = 0 ∧ m.typ = 39)) :
    ∃ t, Streams w (stepOp c op w).2 t := by
  by_cases hp : ∃ rx, op = .process rx
  · obtain ⟨rx, rfl⟩ := hp
    obtain ⟨t, h, -⟩ := cycle ha (fun m => hn rx m rfl) hf
    exact ⟨t, h⟩
  · obtain ⟨t, h, -⟩ := (op_leaves hp hs).streams hf
    exact ⟨t, h⟩

theorem history {c : Ctx} (ops : List Op) (w : W) (h : Undisturbed c ops w) : ∃ t, Streams w (runOps c ops w) t := by
  induction ops generalizing w with
  | nil => exact ⟨[], .quiet (by simp [runOps]) rfl rfl⟩
  | cons op ops ih =>
    obtain ⟨ha, hf, hn, hs, h⟩ := h
    obtain ⟨t, h1⟩ := op_streams ha hf hn hs
    obtain ⟨t', h2⟩ := ih _ h
    exact ⟨t ++ t', h1.trans h2⟩

theorem complete {c : Ctx} (N : Nat) (hN : ∀ i, N ≤ i → c.txOk i = true) (ops : List Op) (w : W) (h : Undisturbed c ops w)
    (hc : (N - w.out.length) + w.v.ext.count.toNat ≤ cycles ops) : (runOps c ops w).v.ext.count.toNat = 0 := by
  induction ops generalizing w with
  | nil => simp only [cycles] at hc; simp only [runOps]; omega
  | cons op ops ih =>
    by_cases h0 : 0 < w.v.ext.count.toNat
    case neg =>
      obtain ⟨t, h1⟩ := history (op :: ops) w h
      have := h1.count_le
      omega
    obtain ⟨ha, hf, hn, hs, h⟩ := h
    obtain ⟨t, h1⟩ := op_streams ha hf hn hs
    refine ih _ h ?_
    have hle := h1.count_le
    have hout : w.out.length ≤ (stepOp c op w).2.out.length := by rw [h1.out]; simp
    cases op with
    | process rx =>
      obtain ⟨-, -, hp⟩ := cycle ha (fun m => hn rx m rfl) hf
      have e : (stepOp c (.process rx) w).2 = (Core.process c rx w).2 := rfl
      rw [e] at hle hout ⊢
      simp only [cycles] at hc
      obtain ⟨p1, p2⟩ := hp h0
      by_cases hNo : N ≤ w.out.length
      · have := p2 (fun i hi => hN i (by omega))
        omega
      · omega
    | _ => simp only [cycles] at hc; omega

/-! ### The property -/

/-- The request, and what follows. -/
theorem request {c : Ctx} {rx : Option Msg} {w : W} {m : Msg} {hi lo addr : U8} {l : List U8} (hT : Takes c rx w m)
    (hm : Request m 37 ([w.v.nick, hi, lo, addr] ++ l)) (hl : l.length ≤ 1) (ops : List Op)
    (h : Undisturbed c ops (stepOp c (.process rx) w).2) :
    ∃ t, (runOps c (.process rx :: ops) w).out = w.out ++ t ∧ w.out.length < (stepOp c (.process rx) w).2.out.length ∧
      (stepOp c (.process rx) w).2.v.ext.count.toNat ≤ wanted l ∧
      (delivered t).flatMap regsOf ++ pending (runOps c (.process rx :: ops) w).v.ext =
        requested (mkWord hi lo) addr (wanted l) ∧
      (∀ f ∈ delivered t, regsOf f ≠ [] ∧ (regsOf f).length ≤ 4 ∧ ∀ r ∈ regsOf f, ∀ r' ∈ regsOf f, r / 256 = r' / 256) ∧
      numberedFrom 0 (delivered t) := by
  obtain ⟨ha, hr, hn⟩ := hT
  obtain ⟨h4, h0, e1, e2, e3, e4⟩ := extRequest_eq hm hl
  have hproc := process_protocol (c := c) (rx := rx) (m := m) ha (by rw [preProcess_rx, hr]) hm.cls (by rw [pre_out]; exact hn)
  have h1o := pre_out c rx w
  have h1n := pre_same c rx w .nick (by decide)
  simp only [Comp.same] at h1n
  have h2 : ∃ t, (notified c m (preProcess c rx w).2).out = w.out ++ t ∧ delivered t = [] ∧
      (notified c m (preProcess c rx w).2).v = (preProcess c rx w).2.v := by
    unfold notified
    split
    · exact ⟨[.protoEvent m (c.protoHandled (preProcess c rx w).2.out.length)], by rw [← h1o]; rfl, rfl, rfl⟩
    · exact ⟨[], by simpa using h1o, rfl, rfl⟩
  obtain ⟨t2, h2o, h2d, h2v⟩ := h2
  generalize (preProcess c rx w).2 = w1 at *
  generalize notified c m w1 = w2 at *
  have hnick : w2.v.nick = m.data[0] := by rw [h2v, h1n, h0]
  obtain ⟨t3, h3, -, -⟩ := request_streams (c := c) (w := w2) hm.typ h4 hnick
  have h3p : w2.out.length < (Core.handleProtocolClassType c m w2).2.out.length := by
    have := extRead_progress c { w2 with v := { w2.v with ext := extRequest m } } (extRequest_pos m)
    have e : (Core.handleProtocolClassType c m w2).2 =
        (Core.extendedPageReadRegister c { w2 with v := { w2.v with ext := extRequest m } }).2 := by
      rw [handler37 hm.typ]
      unfold Core.handleExtendedPageReadRegister
      rw [bind_run, get_run]
      simp only [whenM_run]
      rw [if_pos ⟨h4, hnick⟩, bind_run, setV_run]
      rfl
    rw [e]; exact this.1
  generalize (Core.handleProtocolClassType c m w2).2 = w3 at *
  obtain ⟨t4, h4', -⟩ := tail_streams (c := c) (rx := rx) (w := w) (w2 := w3) (.inr ⟨m, hr, fun h => absurd hm.cls h, hproc⟩)
  have hrun : runOps c (.process rx :: ops) w = runOps c ops (Core.process c rx w).2 := rfl
  have e : (stepOp c (.process rx) w).2 = (Core.process c rx w).2 := rfl
  rw [e] at h ⊢
  obtain ⟨t5, h5⟩ := history ops _ h
  have hall := (h3.trans h4').trans h5
  refine ⟨t2 ++ (t3 ++ t4 ++ t5), ?_, ?_, ?_, ?_, ?_, ?_⟩
  · rw [hrun, hall.out]; simp only [h2o, List.append_assoc]
  · have : w.out.length ≤ w2.out.length := by rw [h2o]; simp
    have : w3.out.length ≤ (Core.process c rx w).2.out.length := by rw [h4'.out]; simp
    omega
  · have := (h3.trans h4').count_le
    simp only [e3] at this
    exact this
  · rw [delivered_append, h2d, List.nil_append, hrun, hall.regs]
    simp only [pending, e1, e2, e3]
  · rw [delivered_append, h2d, List.nil_append]
    exact hall.small
  · rw [delivered_append, h2d, List.nil_append]
    have := hall.numbered
    simp only [e4] at this
    exact this

/-- C116: an extended page read for an active node asks for `wanted l` registers from (page, addr) on; an earlier one which was still running is
given up.  As long as the node stays active, is not reset to the factory settings and takes no further extended page read or write, whatever
else is on the bus (requests to this node, events of other nodes, segment heartbeats, writes of registers), whatever the application does and
whatever transmissions fail: the responses carry the requested registers one after the other, none twice and none left out.  No response
carries more than four registers or registers of two pages, and the responses are numbered. -/
theorem C116_stream {c : Ctx} {rx : Option Msg} {w : W} {m : Msg} {hi lo addr : U8} {l : List U8} (hT : Takes c rx w m)
    (hm : Request m 37 ([w.v.nick, hi, lo, addr] ++ l)) (hl : l.length ≤ 1) (ops : List Op)
    (h : Undisturbed c ops (stepOp c (.process rx) w).2) :
    ∃ t, (runOps c (.process rx :: ops) w).out = w.out ++ t ∧
      (delivered t).flatMap regsOf <+: requested (mkWord hi lo) addr (wanted l) ∧
      (∀ f ∈ delivered t, regsOf f ≠ [] ∧ (regsOf f).length ≤ 4 ∧ ∀ r ∈ regsOf f, ∀ r' ∈ regsOf f, r / 256 = r' / 256) ∧
      numberedFrom 0 (delivered t) := by
  obtain ⟨t, h1, -, -, h2, h3, h4⟩ := request hT hm hl ops h
  exact ⟨t, h1, ⟨_, h2⟩, h3, h4⟩

/-- C116: if transmissions do not fail for ever (here: none from trace position `N` on), every requested register is delivered exactly once, in
order, among all the other traffic. -/
theorem C116_complete {c : Ctx} {rx : Option Msg} {w : W} {m : Msg} {hi lo addr : U8} {l : List U8} (hT : Takes c rx w m)
    (hm : Request m 37 ([w.v.nick, hi, lo, addr] ++ l)) (hl : l.length ≤ 1) (ops : List Op)
    (h : Undisturbed c ops (stepOp c (.process rx) w).2) (N : Nat) (hN : ∀ i, N ≤ i → c.txOk i = true)
    (hc : (N - w.out.length) + wanted l ≤ cycles ops) :
    ∃ t, (runOps c (.process rx :: ops) w).out = w.out ++ t ∧
      (delivered t).flatMap regsOf = requested (mkWord hi lo) addr (wanted l) := by
  obtain ⟨t, h1, hout, hcnt, h2, -, -⟩ := request hT hm hl ops h
  refine ⟨t, h1, ?_⟩
  have h0 := complete N hN ops _ h (by omega)
  have hrun : runOps c (.process rx :: ops) w = runOps c ops (stepOp c (.process rx) w).2 := rfl
  rw [← hrun] at h0
  rw [← h2]
  simp [pending, requested, h0]

/-! ### Contents of the responses -/

/-- The response reports contents which the node has in `w'`: two bytes page, the address of the first register, the contents.  Registers of the
application have no contents of their own, and the alarm register is cleared by the read. -/
def Reports (c : Ctx) (w' : W) (f : Msg) : Prop :=
  ∃ seq hi lo addr vs, payload f = [seq, hi, lo, addr] ++ vs ∧ vs ≠ [] ∧
    ∀ x ∈ (addresses addr vs.length).zip vs, appServed c (mkWord hi lo) x.1 = false → ¬(mkWord hi lo = 0 ∧ x.1 = 0x80) →
      x.2 = (Core.readRegister c (mkWord hi lo) x.1 w').1

theorem mkWord_parts (p : U16) : mkWord (wordMsb p) (wordLsb p) = p := by
  apply BitVec.eq_of_toNat_eq
  rw [Pages.mkWord_eq, BitVec.toNat_ofNat, wordMsb_toNat, wordLsb_toNat]
  have := p.isLt
  omega

theorem extRead_reports {c : Ctx} {w : W} : ∀ t, (Core.activeExtRead c w).2.out = w.out ++ t →
    ∀ f ∈ delivered t, Reports c (Core.activeExtRead c w).2 f := by
  by_cases h : 0 < w.v.ext.count.toNat
  case neg =>
    have e : (Core.activeExtRead c w).2 = w := by
      unfold Core.activeExtRead
      rw [bind_run, get_run]
      simp only [ite_run]
      rw [if_neg h]
      rfl
    rw [e]
    intro t ht f hf
    have : t = [] := List.append_cancel_left (ht.symm.trans (List.append_nil _).symm)
    rw [this] at hf
    exact absurd hf (by simp [delivered])
  have e : (Core.activeExtRead c w).2 = (Core.extendedPageReadRegister c w).2 := by
    unfold Core.activeExtRead
    rw [bind_run, get_run]
    simp only [ite_run]
    rw [if_pos h, bind_run]
    rfl
  rw [e]
  obtain ⟨t0, vs, txe, hr, hf0, hlen, hv⟩ := extRead_run c w h
  intro t ht f hf
  have hsame : Same w (Core.extendedPageReadRegister c w).2 := by rw [hr]; exact ⟨rfl, rfl, rfl, rfl⟩
  have ht' : t = t0 ++ [.tx (extFrame c w.v.nick w.v.ext vs) (c.txOk (w.out ++ t0).length)] := by
    rw [hr] at ht
    simp only [List.append_assoc] at ht
    exact (List.append_cancel_left ht).symm
  rw [ht', delivered_append, delivered_of_frames hf0, List.nil_append] at hf
  have hfe : f = extFrame c w.v.nick w.v.ext vs := by
    unfold delivered at hf
    cases hok : c.txOk (w.out ++ t0).length <;> rw [hok] at hf <;> simp at hf
    exact hf.2.symm
  have h4 := chunk_le w.v.ext
  refine ⟨w.v.ext.seq, wordMsb w.v.ext.page, wordLsb w.v.ext.page, w.v.ext.addr, vs, ?_, ?_, ?_⟩
  · rw [hfe]
    exact Alarm.payload_event _ _ _ _ _ (by simp; omega)
  · have := chunk_pos h
    intro e
    rw [e] at hlen
    simp at hlen
    omega
  · rw [mkWord_parts]
    intro x hx ha hal
    rw [← hlen] at hv
    rw [hv.kept x hx ha]
    exact (readRegister_same ha hsame fun h1 h2 => absurd ⟨h1, h2⟩ hal).symm

/-- C116: the responses of a running extended page read report the contents which the registers have at the end of the cycle in which they are
sent: a register which was written before its turn is reported with its new contents. -/
theorem C116_values {c : Ctx} {rx : Option Msg} {w : W} (ha : w.v.st = .active) (hn : ∀ m, Takes c rx w m → ¬ AnotherExt w m) {t : List Out}
    (ht : (stepOp c (.process rx) w).2.out = w.out ++ t) : ∀ f ∈ delivered t, Reports c (stepOp c (.process rx) w).2 f := by
  have e : (stepOp c (.process rx) w).2 = (Core.process c rx w).2 := rfl
  rw [e] at ht ⊢
  obtain ⟨w2, hh, htail⟩ := active_parts_cycle (c := c) (rx := rx) ha
  obtain ⟨t1, h1, h2, -⟩ := handles_leaves ha hh hn
  have key : ∃ w3 t3, (Core.process c rx w).2 = (Core.activeExtRead c w3).2 ∧ w3.out = w2.out ++ t3 ∧ delivered t3 = [] := by
    have hb : ∀ w2 : W, ∃ t3, (Core.activeHeartbeat c w2).2.out = w2.out ++ t3 ∧ delivered t3 = [] := by
      intro w2
      obtain ⟨t3, tp3, tm3, ub3, h3, h3f, -⟩ := activeHeartbeat_frame c w2
      exact ⟨t3, by rw [h3], delivered_other fun m hm => by rw [(h3f m hm).1]; decide⟩
    rcases htail with ⟨-, e⟩ | ⟨m, -, -, e⟩
    · obtain ⟨t3, h3, h3'⟩ := hb w2
      exact ⟨_, t3, e, h3, h3'⟩
    · obtain ⟨t4, dm, ub, h4, h4f⟩ := actions_frame c m w2
      obtain ⟨t3, h3, h3'⟩ := hb ((runActions c m) w2).2
      refine ⟨(Core.activeHeartbeat c ((runActions c m) w2).2).2, t4 ++ t3, e, by rw [h3, h4, List.append_assoc], ?_⟩
      rw [delivered_append, h3', delivered_of_frames (frames_actions h4f)]
      rfl
  obtain ⟨w3, t3, e3, h3, h3'⟩ := key
  obtain ⟨t5, h5, -, -, -⟩ := activeExtRead_streams c w3
  have hout : (Core.process c rx w).2.out = w.out ++ (t1 ++ t3 ++ t5) := by
    rw [e3, h5.out, h3, h1]; simp only [List.append_assoc]
  have ht5 : t = t1 ++ t3 ++ t5 := List.append_cancel_left (ht.symm.trans hout)
  intro f hf
  rw [ht5, delivered_append, delivered_append, h2, h3', List.nil_append, List.nil_append] at hf
  rw [e3]
  exact extRead_reports t5 h5.out f hf

/-! ### The nickname of the responses -/

theorem mem_frames_of_delivered {t : List Out} {f : Msg} (h : f ∈ delivered t) : f ∈ frames t := by
  unfold delivered at h
  rw [List.mem_filterMap] at h
  obtain ⟨o, ho, he⟩ := h
  unfold frames
  rw [List.mem_filterMap]
  cases o with
  | tx m ok =>
    cases ok with
    | false => cases he
    | true =>
      simp only at he
      split at he
      · exact ⟨_, ho, by simpa using he⟩
      · cases he
  | _ => cases he

/-- The responses of a cycle carry the nickname which the node has at its end. -/
theorem cycle_nick {c : Ctx} {rx : Option Msg} {w : W} (ha : w.v.st = .active) (hn : ∀ m, Takes c rx w m → ¬ AnotherExt w m) {t : List Out}
    (ht : (Core.process c rx w).2.out = w.out ++ t) : ∀ f ∈ delivered t, f.oAddr = (Core.process c rx w).2.v.nick := by
  obtain ⟨w2, hh, htail⟩ := active_parts_cycle (c := c) (rx := rx) ha
  obtain ⟨t1, h1, h2, -⟩ := handles_leaves ha hh hn
  have hT : Tail c w2 (Core.process c rx w).2 := by
    rcases htail with ⟨-, e⟩ | ⟨m, -, -, e⟩
    · exact e ▸ .hbExt c _
    · exact e ▸ .afterEvent c m _
  obtain ⟨t3, h3, h3'⟩ := hT.sends
  have hk := hT.steps.same .nick (by decide)
  simp only [Comp.same] at hk
  have ht3 : t = t1 ++ t3 := List.append_cancel_left (ht.symm.trans (by rw [h3, h1, List.append_assoc]))
  intro f hf
  rw [ht3, delivered_append, h2, List.nil_append] at hf
  have hfr := mem_frames_of_delivered hf
  rw [hk]
  rcases h3' f hfr with h | h
  · exact h.2.2
  · exact h.2.2.1

theorem delivered_mono {t t' : List Out} {f : Msg} (h : f ∈ delivered t) (hs : ∀ o ∈ t, o ∈ t') : f ∈ delivered t' := by
  unfold delivered at *
  rw [List.mem_filterMap] at *
  obtain ⟨o, ho, he⟩ := h
  exact ⟨o, hs o ho, he⟩

theorem history_nick {c : Ctx} {n : U8} (ops : List Op) (w : W) (h : Undisturbed c ops w) (hk : KeepsNick c n ops w) {t : List Out}
    (ht : (runOps c ops w).out = w.out ++ t) : ∀ f ∈ delivered t, f.oAddr = n := by
  induction ops generalizing w t with
  | nil =>
    have : t = [] := List.append_cancel_left (ht.symm.trans (List.append_nil _).symm)
    rw [this]; intro f hf; exact absurd hf (by simp [delivered])
  | cons op ops ih =>
    obtain ⟨ha, hf, hn, hs, h⟩ := h
    obtain ⟨hk0, hk⟩ := hk
    obtain ⟨t1, h1⟩ := op_out c op w
    obtain ⟨t2, h2⟩ := ops_out c ops (stepOp c op w).2
    have hsplit : t = t1 ++ t2 := List.append_cancel_left (ht.symm.trans (show (runOps c ops (stepOp c op w).2).out = _ by rw [h2, h1, List.append_assoc]))
    intro f hd
    rw [hsplit, delivered_append, List.mem_append] at hd
    rcases hd with hd | hd
    · have hnew : (stepOp c op w).2.v.nick = n := by
        cases ops with
        | nil => exact hk
        | cons _ _ => exact hk.1
      by_cases hp : ∃ rx, op = .process rx
      · obtain ⟨rx, rfl⟩ := hp
        rw [← hnew]
        exact cycle_nick ha (fun m => hn rx m rfl) h1 f hd
      · exfalso
        have hl : Leaves w (stepOp c op w).2 := op_leaves hp hs
        obtain ⟨t', e, e', -⟩ := hl
        have : t1 = t' := List.append_cancel_left (h1.symm.trans e)
        rw [this, e'] at hd
        cases hd
    · exact ih _ h hk h2 f hd

/-- The cycle of the request. -/
theorem request_nick {c : Ctx} {rx : Option Msg} {w : W} {m : Msg} {hi lo addr : U8} {l : List U8} (hT : Takes c rx w m)
    (hm : Request m 37 ([w.v.nick, hi, lo, addr] ++ l)) (hl : l.length ≤ 1) {t : List Out}
    (ht : (stepOp c (.process rx) w).2.out = w.out ++ t) : ∀ f ∈ delivered t, f.oAddr = w.v.nick := by
  obtain ⟨h4, h0, -⟩ := extRequest_eq hm hl
  obtain ⟨w1, t1, ho1, hp, hs, htail⟩ := takes_cycle hT hm.cls
  have hnick := hs .nick (by decide)
  simp only [Comp.same] at hnick
  have e : (Core.handleProtocolClassType c m w1).2 =
      (Core.extendedPageReadRegister c { w1 with v := { w1.v with ext := extRequest m } }).2 := by
    rw [handler37 hm.typ]
    unfold Core.handleExtendedPageReadRegister
    rw [bind_run, get_run]
    simp only [whenM_run]
    rw [if_pos ⟨h4, by rw [hnick, h0]⟩, bind_run, setV_run]
    rfl
  obtain ⟨t0, vs, txe, hr, hf0, -, -⟩ := extRead_run c { w1 with v := { w1.v with ext := extRequest m } } (extRequest_pos m)
  rw [← e] at hr
  obtain ⟨t3, h3, h3'⟩ := htail.sends
  have hn3 : (Core.handleProtocolClassType c m w1).2.v.nick = w.v.nick := by rw [hr]; exact hnick
  have ho3 : (Core.handleProtocolClassType c m w1).2.out = w1.out ++ (t0 ++ [.tx (extFrame c w1.v.nick (extRequest m) vs) (c.txOk (w1.out ++ t0).length)]) := by
    rw [hr, ← List.append_assoc]
  have hall : t = t1 ++ (t0 ++ [.tx (extFrame c w1.v.nick (extRequest m) vs) (c.txOk (w1.out ++ t0).length)]) ++ t3 := by
    have e' : (stepOp c (.process rx) w).2 = (Core.process c rx w).2 := rfl
    rw [e', h3, ho3] at ht
    generalize c.txOk (w1.out ++ t0).length = b at *
    rw [ho1] at ht
    simp only [List.append_assoc] at ht ⊢
    exact (List.append_cancel_left ht).symm
  intro f hf
  have hfr := mem_frames_of_delivered hf
  rw [hall, frames_append, frames_append, frames_append, hf0, List.nil_append, List.mem_append, List.mem_append] at hfr
  rcases hfr with (hfr | hfr) | hfr
  · unfold frames at hfr
    rw [List.mem_filterMap] at hfr
    obtain ⟨o, ho, he⟩ := hfr
    obtain ⟨b, rfl⟩ := hp o ho
    cases he
  · simp [frames] at hfr
    rw [hfr]
    exact hnick
  · rcases h3' f hfr with h | h
    · rw [h.2.2, hn3]
    · rw [h.2.2.1, hn3]

/-- C117: as long as a node keeps its nickname (and under the conditions of C116), the responses to an extended page read carry the nickname
which the request was sent to. -/
theorem C117_partial {c : Ctx} {rx : Option Msg} {w : W} {m : Msg} {hi lo addr : U8} {l : List U8} (hT : Takes c rx w m)
    (hm : Request m 37 ([w.v.nick, hi, lo, addr] ++ l)) (hl : l.length ≤ 1) (ops : List Op)
    (h : Undisturbed c ops (stepOp c (.process rx) w).2) (hk : KeepsNick c w.v.nick ops (stepOp c (.process rx) w).2) {t : List Out}
    (ht : (runOps c (.process rx :: ops) w).out = w.out ++ t) : ∀ f ∈ delivered t, f.oAddr = w.v.nick := by
  obtain ⟨t1, h1⟩ := op_out c (.process rx) w
  obtain ⟨t2, h2⟩ := ops_out c ops (stepOp c (.process rx) w).2
  have hsplit : t = t1 ++ t2 := List.append_cancel_left (ht.symm.trans
    (show (runOps c ops (stepOp c (.process rx) w).2).out = _ by rw [h2, h1, List.append_assoc]))
  intro f hd
  rw [hsplit, delivered_append, List.mem_append] at hd
  rcases hd with hd | hd
  · exact request_nick hT hm hl h1 f hd
  · exact history_nick ops _ h hk h2 f hd

/-- C117: otherwise they do not: if a node loses or changes its nickname in a cycle in which an extended page read is still running (a new nickname, a
drop of the nickname, another segment, another node with the same nickname), it goes on answering under its new nickname, or under 0xFF.  So a
response comes from a node which nobody has asked. -/
theorem C117_violated {c : Ctx} {rx : Option Msg} {w : W} (ha : w.v.st = .active) (hc : 0 < w.v.ext.count.toNat)
    (hn : ∀ m, Takes c rx w m → ¬ AnotherExt w m) (hf : ¬ factoryReset w (stepOp c (.process rx) w).2)
    (hch : (stepOp c (.process rx) w).2.v.nick ≠ w.v.nick) (htx : ∀ i, w.out.length ≤ i → c.txOk i = true) {t : List Out}
    (ht : (stepOp c (.process rx) w).2.out = w.out ++ t) :
    ∃ f ∈ delivered t, f.oAddr = (stepOp c (.process rx) w).2.v.nick ∧ f.oAddr ≠ w.v.nick := by
  have e : (stepOp c (.process rx) w).2 = (Core.process c rx w).2 := rfl
  rw [e] at *
  obtain ⟨t', h1, h2⟩ := cycle ha hn hf
  have htt : t = t' := List.append_cancel_left (ht.symm.trans h1.out)
  subst htt
  have h3 := (h2 hc).2 htx
  have h4 := congrArg List.length h1.regs
  simp only [List.length_append, pending, requested, List.length_map, List.length_range] at h4
  have hne : delivered t ≠ [] := fun hd => by
    rw [hd] at h4
    simp at h4
    omega
  obtain ⟨f, hf'⟩ := List.exists_mem_of_ne_nil _ hne
  have := cycle_nick ha hn ht f hf'
  exact ⟨f, hf', this, by rw [this]; exact hch⟩

/-! ### An example -/

/-- The node of the examples of C24 gets a request for ten registers.  While it answers, somebody reads a register, another node is asked for its
registers, and the node gets a new nickname. -/
def exOps : List Op := [.process (some (Ex.msg 0 9 9 [5, 0x91])), .process (some (Ex.msg 0 37 9 [6, 0, 0, 0, 0])), .tick 100,
  .process (some (Ex.msg 0 6 9 [5, 7]))]

def exFrames (w : W) : List (List U8 × Bool) :=
  (w.out.drop Stream.exNode.out.length).filterMap fun o => match o with | .tx m ok => some (payload m, ok) | _ => none

example : Takes exCtx (some exReq) Stream.exNode exReq ∧ Request exReq 37 ([Stream.exNode.v.nick, 0, 0, 0xFC] ++ [10]) :=
  ⟨⟨by decide +kernel, by decide +kernel, by decide +kernel⟩, rfl, rfl, rfl, by decide +kernel⟩

theorem undisturbed_cons {c : Ctx} {rx : Option Msg} {m : Msg} {ops : List Op} {w : W} (h1 : w.v.st = .active)
    (h2 : .portRestore ∉ (stepOp c (.process rx) w).2.out.drop w.out.length) (h3 : (readMessage c rx w).1 = some m) (h4 : ¬ AnotherExt w m)
    (h5 : Undisturbed c ops (stepOp c (.process rx) w).2) : Undisturbed c (.process rx :: ops) w := by
  refine ⟨h1, h2, ?_, fun m h => (by cases h), h5⟩
  rintro _ m' h ⟨-, hr, -⟩
  cases h
  rw [h3] at hr
  cases hr
  exact h4

example : Undisturbed exCtx exOps (stepOp exCtx (.process (some exReq)) Stream.exNode).2 := by
  refine undisturbed_cons (by decide +kernel) (by decide +kernel) (m := Ex.msg 0 9 9 [5, 0x91]) (by decide +kernel) (by decide +kernel) ?_
  refine undisturbed_cons (by decide +kernel) (by decide +kernel) (m := Ex.msg 0 37 9 [6, 0, 0, 0, 0]) (by decide +kernel) (by decide +kernel) ?_
  refine ⟨by decide +kernel, by unfold factoryReset; decide +kernel, fun _ _ h => (by cases h), fun _ h => (by cases h), ?_⟩
  refine undisturbed_cons (by decide +kernel) (by decide +kernel) (m := Ex.msg 0 6 9 [5, 7]) (by decide +kernel) (by decide +kernel) trivial

example : exFrames (runOps exCtx (.process (some exReq) :: exOps) Stream.exNode) =
    [([0, 0, 0, 0xFC, 0x40, 0x40, 0x40, 0x40], true), ([1, 0, 1, 0, 0x40, 0x40, 0x40, 0x40], false), ([0x91, 5], true),
     ([1, 0, 1, 0, 0x40, 0x40, 0x40, 0x40], true), ([2, 0, 1, 4, 0x40, 0x40], true), ([], true)] := by decide +kernel

/-- A node which is asked for its registers, and told to drop its nickname before it has sent all of them. -/
def exDrop : List Op := [.process (some (Ex.msg 0 8 9 [5, 0x80]))]

def exOrigins (w : W) : List (U8 × U8) :=
  (w.out.drop Stream.exNode.out.length).filterMap fun o => match o with | .tx m true => some (m.typ, m.oAddr) | _ => none

-- It sends the next response from 0xFF.
example : exOrigins (runOps exCtx (.process (some exReq) :: exDrop) Stream.exNode) = [(39, 5), (39, 0xFF)] := by decide +kernel

example : let w := (stepOp exCtx (.process (some exReq)) Stream.exNode).2
    w.v.st = .active ∧ 0 < w.v.ext.count.toNat ∧ (readMessage exCtx (some (Ex.msg 0 8 9 [5, 0x80])) w).1 = some (Ex.msg 0 8 9 [5, 0x80]) ∧
    ¬ AnotherExt w (Ex.msg 0 8 9 [5, 0x80]) ∧ .portRestore ∉ (stepOp exCtx (.process (some (Ex.msg 0 8 9 [5, 0x80]))) w).2.out.drop w.out.length ∧
    (stepOp exCtx (.process (some (Ex.msg 0 8 9 [5, 0x80]))) w).2.v.nick = 0xFF := by decide +kernel

example : KeepsNick exCtx 5 (exOps.take 3) (stepOp exCtx (.process (some exReq)) Stream.exNode).2 := by
  simp only [exOps, List.take, KeepsNick]
  exact ⟨by decide +kernel, by decide +kernel, by decide +kernel, by decide +kernel⟩

end Vscp.StreamBus
