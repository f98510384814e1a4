/-
Property theorems: idle and error state, reset (C35, C36).
-/
import Verif.Lemmas.OpSteps
import Verif.Props.Drop

namespace Vscp.Sleep
open M Spec Transport Safety

/-! ### C35: idle and error state -/

/-- C35: in idle and in error state received events and the passing of time cause no call into other code (no transmission, no
callback, no write to the persistent memory), and state and nickname stay as they are. -/
theorem C35_silent {c : Ctx} {w : W} (h : w.v.st = .idle ∨ w.v.st = .error) (ops : List Op) (hops : ∀ op ∈ ops, calm op) :
    (runOps c ops w).out = w.out ∧ (runOps c ops w).v.st = w.v.st ∧ (runOps c ops w).v.nick = w.v.nick ∧
    (runOps c ops w).ps = w.ps := by
  induction ops generalizing w with
  | nil => exact ⟨rfl, rfl, rfl, rfl⟩
  | cons op ops ih =>
    have hc : calm op := hops op (by simp)
    have key : (stepOp c op w).2.out = w.out ∧ (stepOp c op w).2.v.st = w.v.st ∧ (stepOp c op w).2.v.nick = w.v.nick ∧
        (stepOp c op w).2.ps = w.ps := by
      by_cases hp : ∃ rx, op = .process rx
      · obtain ⟨rx, rfl⟩ := hp
        have e : (stepOp c (.process rx) w).2 = (preProcess c rx w).2 := process_idle h
        rw [e]
        exact ⟨pre_out c rx w, pre_same c rx w .st (by decide), pre_same c rx w .nick (by decide), pre_same c rx w .ps (by decide)⟩
      · have hp : ∀ rx, op ≠ .process rx := fun rx he => hp ⟨rx, he⟩
        refine ⟨calm_out c op hc hp w, op_same c op hp w .st ?_, op_same c op hp w .nick ?_, op_same c op hp w .ps ?_⟩ <;>
          cases op <;> first | exact hc.elim | exact absurd rfl (hp _) | rfl
    simp only [runOps]
    have h' : (stepOp c op w).2.v.st = .idle ∨ (stepOp c op w).2.v.st = .error := by rw [key.2.1]; exact h
    obtain ⟨h1, h2, h3, h4⟩ := ih h' (fun o ho => hops o (by simp [ho]))
    exact ⟨h1.trans key.1, h2.trans key.2.1, h3.trans key.2.2.1, h4.trans key.2.2.2⟩

/-- C35: only a new start of the framework and an explicit segment initialisation leave these states. -/
theorem C35_leave {c : Ctx} {w : W} {op : Op} (h : w.v.st = .idle ∨ w.v.st = .error) (hi : ∀ ok, op ≠ .init ok)
    (hs : op ≠ .startNodeSegmentInit) : (stepOp c op w).2.v.st = w.v.st := by
  by_cases hp : ∃ rx, op = .process rx
  · obtain ⟨rx, rfl⟩ := hp
    have e : (stepOp c (.process rx) w).2 = (preProcess c rx w).2 := process_idle h
    rw [e]
    exact pre_same c rx w .st (by decide)
  · have hp : ∀ rx, op ≠ .process rx := fun rx he => hp ⟨rx, he⟩
    refine op_same c op hp w .st ?_
    cases op <;> first | exact absurd rfl (hp _) | exact absurd rfl (hi _) | exact absurd rfl hs | rfl

/-- C35: and the explicit segment initialisation does leave them. -/
theorem C35_restart {c : Ctx} {w : W} (h : w.v.st = .idle ∨ w.v.st = .error) :
    (stepOp c .startNodeSegmentInit w).2.v.st = .init ∧ (stepOp c .startNodeSegmentInit w).2.v.ist = .probeMaster := by
  have hne : w.v.st ≠ .init := by rcases h with h | h <;> rw [h] <;> decide
  simp only [stepOp, Core.startNodeSegmentInit, Core.changeToStateInit, bind_run, get_run, whenM_run, if_pos hne, emit_run, setV_run,
    writeNick_run]
  exact ⟨trivial, rfl⟩

/-- An idle node, and a node whose timers cannot be created. -/
example : let w := node Ex.ctx allOk (mem 0x60) [.process none, .process (some (Ex.msg 0 8 0 [5, 0x80]))]
    w.v.st = .idle ∧ (node Ex.ctx (fun _ => false) (mem 0x60) [.process none]).v.st = .error := by
  refine ⟨by decide +kernel, by decide +kernel⟩

/-! ### C36: reset -/

/-- The node begins to wait for a reset in `t` seconds. -/
structure Waiting (w : W) (t : U8) : Prop where
  st : w.v.st = .reset
  sec : w.v.secCnt = t
  req : w.v.resetReq = false
  ok : w.tm.ok .main = true
  rem : w.tm.rem .main = if t = 0 then 0 else 1000

/-- A drop nickname event with a reset leads there. -/
theorem waiting_of_dropped {c : Ctx} {w w' : W} {keep restore : Bool} {t : U8} (h : Drop.Dropped c w w' false keep restore t)
    (hr : w.v.resetReq = false) (hok : w.tm.ok .main = true) (hok' : w'.tm.ok = w.tm.ok) : Waiting w' t := by
  obtain ⟨h1, h2, h3⟩ := h.wait rfl
  exact ⟨h.st, h1, h2.trans hr, by rw [hok']; exact hok, h3 hok⟩

theorem stateReset_run (w : W) (hok : w.tm.ok .main = true) :
    (Core.stateReset w).2 = if w.v.resetReq = false ∧ w.tm.rem .main = 0 then
      (if w.v.secCnt.toNat ≤ 1 then { w with v := { w.v with secCnt := 0, resetReq := true }, out := w.out ++ [.resetRequest] }
       else { w with v := { w.v with secCnt := w.v.secCnt - 1 },
                     tm := { w.tm with rem := fun x => if x = .main then 1000 else w.tm.rem x } })
      else w := by
  unfold Core.stateReset
  simp only [bind_run, get_run, timerRunning_run, whenM_run, hok, Bool.true_and, bne_eq_false_iff_eq]
  by_cases h : w.v.resetReq = false ∧ w.tm.rem .main = 0
  · rw [if_pos h, if_pos h]
    simp only [setV_run, ite_run, timerStart_run, hok, if_true]
    by_cases h1 : w.v.secCnt.toNat ≤ 1
    · have e : (if 0 < w.v.secCnt.toNat then w.v.secCnt - 1 else w.v.secCnt) = 0 := by
        apply BitVec.eq_of_toNat_eq
        split
        · rw [BitVec.toNat_sub]; simp; omega
        · show _ = 0; omega
      rw [e]
      simp only [if_true, if_pos h1]
      rfl
    · have e : (if 0 < w.v.secCnt.toNat then w.v.secCnt - 1 else w.v.secCnt) = w.v.secCnt - 1 := if_pos (by omega)
      have hne : ¬ (w.v.secCnt - 1 = 0) := by
        intro h0
        have := congrArg BitVec.toNat h0
        rw [BitVec.toNat_sub] at this
        have hlt := w.v.secCnt.isLt
        simp at this
        omega
      rw [e, if_neg hne, if_neg h1]
  · rw [if_neg h, if_neg h]

/-- The wait for the reset, `e` milliseconds after its begin in state `w0` with `t` seconds: either the reset is requested, or not yet. -/
def Wait (w0 : W) (t : Nat) (e : Nat) (w : W) : Prop :=
  w.v.st = .reset ∧ w.tm.ok .main = true ∧ w.v.nick = w0.v.nick ∧ w.ps = w0.ps ∧
  ((w.v.resetReq = false ∧ w.out = w0.out ∧ 1000 * t ≤ e + (w.tm.rem .main).toNat + 1000 * (w.v.secCnt.toNat - 1)) ∨
   (w.v.resetReq = true ∧ w.out = w0.out ++ [.resetRequest] ∧ 1000 * t ≤ e))

theorem Wait.step {c : Ctx} {w0 : W} {t e : Nat} {w : W} (h : Wait w0 t e w) (op : Op) (hc : calm op) :
    Wait w0 t (e + elapsed [op]) (stepOp c op w).2 := by
  obtain ⟨h1, h2, h3, h4, h5⟩ := h
  by_cases hp : ∃ rx, op = .process rx
  · obtain ⟨rx, rfl⟩ := hp
    have e1 : (stepOp c (.process rx) w).2 = (Core.stateReset (preProcess c rx w).2).2 := process_reset h1
    have p1 : (preProcess c rx w).2.v.st = .reset := (pre_same c rx w .st (by decide)).trans h1
    have p2 : (preProcess c rx w).2.tm.ok .main = true := by
      have := pre_same c rx w .ok (by decide)
      simp only [Comp.same] at this
      rw [this]; exact h2
    have p3 : (preProcess c rx w).2.v.nick = w.v.nick := pre_same c rx w .nick (by decide)
    have p4 : (preProcess c rx w).2.ps = w.ps := pre_same c rx w .ps (by decide)
    have p5 : (preProcess c rx w).2.v.resetReq = w.v.resetReq := pre_same c rx w .reset (by decide)
    have p6 : (preProcess c rx w).2.tm.rem .main = w.tm.rem .main := pre_same c rx w (.tm .main) (by decide)
    have p7 : (preProcess c rx w).2.v.secCnt = w.v.secCnt := pre_same c rx w .sec (by decide)
    have p8 := pre_out c rx w
    rw [e1]
    generalize (preProcess c rx w).2 = w1 at *
    rw [stateReset_run w1 p2]
    simp only [elapsed, Nat.add_zero]
    rcases h5 with ⟨h5, h6, h7⟩ | ⟨h5, h6, h7⟩
    · split
      · rename_i hq
        rw [← p6, hq.2] at h7
        rw [← p7] at h7
        have z : BitVec.toNat (0 : U16) = 0 := rfl
        rw [z] at h7
        split
        · exact ⟨p1, p2, p3.trans h3, p4.trans h4, .inr ⟨rfl, by show w1.out ++ _ = _; rw [p8, h6], by omega⟩⟩
        · rename_i h9
          refine ⟨p1, p2, p3.trans h3, p4.trans h4, .inl ⟨p5.trans h5, p8.trans h6, ?_⟩⟩
          simp only [if_true]
          have z : BitVec.toNat (1000 : U16) = 1000 := rfl
          have hs : (w1.v.secCnt - 1).toNat = w1.v.secCnt.toNat - 1 := by
            rw [BitVec.toNat_sub]; have := w1.v.secCnt.isLt; simp; omega
          rw [z, hs]
          omega
      · exact ⟨p1, p2, p3.trans h3, p4.trans h4, .inl ⟨p5.trans h5, p8.trans h6, by rw [p6, p7]; exact h7⟩⟩
    · rw [if_neg (by rw [p5, h5]; simp)]
      exact ⟨p1, p2, p3.trans h3, p4.trans h4, .inr ⟨p5.trans h5, p8.trans h6, h7⟩⟩
  · have hp : ∀ rx, op ≠ .process rx := fun rx he => hp ⟨rx, he⟩
    have o := calm_out c op hc hp w
    have s1 : (stepOp c op w).2.v.st = w.v.st := op_same c op hp w .st (by cases op <;> first | exact hc.elim | exact absurd rfl (hp _) | rfl)
    have s2 : (stepOp c op w).2.tm.ok = w.tm.ok := op_same c op hp w .ok (by cases op <;> first | exact hc.elim | exact absurd rfl (hp _) | rfl)
    have s3 : (stepOp c op w).2.v.nick = w.v.nick := op_same c op hp w .nick (by cases op <;> first | exact hc.elim | exact absurd rfl (hp _) | rfl)
    have s4 : (stepOp c op w).2.ps = w.ps := op_same c op hp w .ps (by cases op <;> first | exact hc.elim | exact absurd rfl (hp _) | rfl)
    have s5 : (stepOp c op w).2.v.resetReq = w.v.resetReq := op_same c op hp w .reset (by cases op <;> first | exact hc.elim | exact absurd rfl (hp _) | rfl)
    have s6 : (stepOp c op w).2.v.secCnt = w.v.secCnt := op_same c op hp w .sec (by cases op <;> first | exact hc.elim | exact absurd rfl (hp _) | rfl)
    refine ⟨s1.trans h1, by rw [s2]; exact h2, s3.trans h3, s4.trans h4, ?_⟩
    rcases h5 with ⟨h5, h6, h7⟩ | ⟨h5, h6, h7⟩
    · refine .inl ⟨s5.trans h5, o.trans h6, ?_⟩
      rw [s6]
      by_cases ht : ∃ ms, op = .tick ms
      · obtain ⟨ms, rfl⟩ := ht
        rw [tick_rem]
        simp only [elapsed]
        omega
      · have r : (stepOp c op w).2.tm.rem .main = w.tm.rem .main :=
          op_same c op hp w (.tm .main) (by cases op <;> first | exact hc.elim | exact absurd rfl (hp _) | exact absurd ⟨_, rfl⟩ ht | rfl)
        rw [r]
        omega
    · exact .inr ⟨s5.trans h5, o.trans h6, by omega⟩

theorem Wait.run {c : Ctx} {w0 : W} {t e : Nat} {w : W} (h : Wait w0 t e w) (ops : List Op) (hops : ∀ op ∈ ops, calm op) :
    Wait w0 t (e + elapsed ops) (runOps c ops w) := by
  induction ops generalizing w e with
  | nil => exact h
  | cons op ops ih =>
    have h1 := h.step (c := c) op (hops op (by simp))
    have h2 := ih h1 (fun o ho => hops o (by simp [ho]))
    have : elapsed (op :: ops) = elapsed [op] + elapsed ops := elapsed_append [op] ops
    rw [this, ← Nat.add_assoc]
    exact h2

theorem Waiting.wait {w : W} {t : U8} (h : Waiting w t) : Wait w t.toNat 0 w := by
  refine ⟨h.st, h.ok, rfl, rfl, .inl ⟨h.req, rfl, ?_⟩⟩
  rw [h.rem, h.sec]
  by_cases ht : t = 0
  · subst ht; decide
  · rw [if_neg ht]
    have z : BitVec.toNat (1000 : U16) = 1000 := rfl
    have : t.toNat ≠ 0 := fun h => ht (BitVec.eq_of_toNat_eq h)
    rw [z]
    omega

/-- C36: in the wait for the reset the node makes no call at all but one reset request, and this one not before the wait time
has elapsed; nickname and persistent memory stay as they are. -/
theorem C36_once {c : Ctx} {w : W} {t : U8} (h : Waiting w t) (ops : List Op) (hops : ∀ op ∈ ops, calm op) :
    (runOps c ops w).v.st = .reset ∧ (runOps c ops w).v.nick = w.v.nick ∧ (runOps c ops w).ps = w.ps ∧
    ((runOps c ops w).out = w.out ∨
     ((runOps c ops w).out = w.out ++ [.resetRequest] ∧ 1000 * t.toNat ≤ elapsed ops)) := by
  obtain ⟨h1, -, h2, h3, h4⟩ := h.wait.run (c := c) ops hops
  rw [Nat.zero_add] at h4
  exact ⟨h1, h2, h3, h4.imp (fun h => h.2.1) (fun h => ⟨h.2.1, h.2.2⟩)⟩

/-- The wait still needs at most this many cycles. -/
def cyclesLeft (w : W) : Nat := if w.v.resetReq then 0 else (w.tm.rem .main).toNat + 1001 * w.v.secCnt.toNat + 1

theorem cyclesLeft_step {c : Ctx} {w : W} (h1 : w.v.st = .reset) (h2 : w.tm.ok .main = true) (ms : Nat) (hms : 0 < ms) (rx : Option Msg) :
    let w' := runOps c [.tick ms, .process rx] w
    w'.v.st = .reset ∧ w'.tm.ok .main = true ∧ cyclesLeft w' ≤ cyclesLeft w - 1 := by
  intro w'
  have hc : ∀ op ∈ [Op.tick ms, .process rx], calm op := by simp [calm]
  obtain ⟨w1, hw1⟩ : ∃ w1, w1 = (stepOp c (.tick ms) w).2 := ⟨_, rfl⟩
  have e : w' = (Core.stateReset (preProcess c rx w1).2).2 := by
    show (Core.process c rx (stepOp c (.tick ms) w).2).2 = _
    rw [hw1]
    exact process_reset h1
  have q1 : w1.v.st = .reset := by rw [hw1]; exact h1
  have q2 : w1.tm.ok .main = true := by rw [hw1]; exact h2
  have q3 : w1.v.resetReq = w.v.resetReq := by rw [hw1]; rfl
  have q4 : w1.v.secCnt = w.v.secCnt := by rw [hw1]; rfl
  have q5 : (w1.tm.rem .main).toNat = (w.tm.rem .main).toNat - ms := by rw [hw1]; exact tick_rem c ms w .main
  have p1 : (preProcess c rx w1).2.v.st = .reset := (pre_same c rx w1 .st (by decide)).trans q1
  have p2 : (preProcess c rx w1).2.tm.ok .main = true := by
    have := pre_same c rx w1 .ok (by decide)
    simp only [Comp.same] at this
    rw [this]; exact q2
  have p5 : (preProcess c rx w1).2.v.resetReq = w.v.resetReq := (pre_same c rx w1 .reset (by decide)).trans q3
  have p6 : (preProcess c rx w1).2.tm.rem .main = w1.tm.rem .main := pre_same c rx w1 (.tm .main) (by decide)
  have p7 : (preProcess c rx w1).2.v.secCnt = w.v.secCnt := (pre_same c rx w1 .sec (by decide)).trans q4
  rw [e]
  generalize (preProcess c rx w1).2 = w2 at *
  rw [stateReset_run w2 p2]
  rw [← p6] at q5
  unfold cyclesLeft
  by_cases hr : w.v.resetReq = true
  · rw [if_neg (by rw [p5, hr]; simp)]
    exact ⟨p1, p2, by rw [p5, hr]; simp⟩
  · have hr : w.v.resetReq = false := by simpa using hr
    rw [hr]
    simp only [Bool.false_eq_true, if_false]
    split
    · rename_i hq
      split
      · exact ⟨p1, p2, by simp⟩
      · rename_i h9
        refine ⟨p1, p2, ?_⟩
        show (if w2.v.resetReq = true then 0 else _) ≤ _
        rw [p5, hr]
        have hs : (w2.v.secCnt - 1).toNat = w2.v.secCnt.toNat - 1 := by
          rw [BitVec.toNat_sub]; have := w2.v.secCnt.isLt; simp; omega
        have z : BitVec.toNat (1000 : U16) = 1000 := rfl
        simp only [Bool.false_eq_true, if_false, if_true, z, hs]
        rw [← p7]
        omega
    · rename_i hq
      refine ⟨p1, p2, ?_⟩
      rw [p5, hr]
      simp only [Bool.false_eq_true, if_false]
      have : w2.tm.rem .main ≠ 0 := fun h => hq ⟨p5.trans hr, h⟩
      have : (w2.tm.rem .main).toNat ≠ 0 := fun h => this (BitVec.eq_of_toNat_eq h)
      rw [p7]
      omega

/-- C36: the reset is requested, at the latest in the cycle with the number 1001 (t + 1). -/
theorem C36_requested {c : Ctx} {w : W} {t : U8} (h : Waiting w t) (l : List (Nat × Option Msg)) (hl : ∀ x ∈ l, 0 < x.1)
    (hlen : 1001 * (t.toNat + 1) ≤ l.length) : (runOps c (rounds l) w).out = w.out ++ [.resetRequest] := by
  have gen : ∀ (l : List (Nat × Option Msg)) (w : W), (∀ x ∈ l, 0 < x.1) → w.v.st = .reset → w.tm.ok .main = true →
      cyclesLeft (runOps c (rounds l) w) ≤ cyclesLeft w - l.length := by
    intro l
    induction l with
    | nil => intro w _ _ _; simp [rounds, runOps]
    | cons x l ih =>
      intro w hl h1 h2
      have e : runOps c (rounds (x :: l)) w = runOps c (rounds l) (runOps c [.tick x.1, .process x.2] w) := rfl
      rw [e]
      obtain ⟨a1, a2, a3⟩ := cyclesLeft_step (c := c) h1 h2 x.1 (hl x (by simp)) x.2
      have := ih _ (fun y hy => hl y (by simp [hy])) a1 a2
      simp only [List.length_cons]
      omega
  have h1 := gen l w hl h.st h.ok
  have hcalm : ∀ op ∈ rounds l, calm op := by
    intro op ho
    simp only [rounds, List.mem_flatMap] at ho
    obtain ⟨x, -, hx⟩ := ho
    simp only [List.mem_cons, List.not_mem_nil, or_false] at hx
    rcases hx with rfl | rfl <;> trivial
  have h2 : cyclesLeft w ≤ 1001 * (t.toNat + 1) := by
    unfold cyclesLeft
    rw [h.req, h.rem, h.sec]
    have z : BitVec.toNat (1000 : U16) = 1000 := rfl
    have z' : BitVec.toNat (0 : U16) = 0 := rfl
    simp only [Bool.false_eq_true, if_false]
    split
    · rw [z']; omega
    · rw [z]; omega
  have h3 : cyclesLeft (runOps c (rounds l) w) = 0 := by omega
  obtain ⟨-, -, -, -, h4⟩ := h.wait.run (c := c) (rounds l) hcalm
  rcases h4 with ⟨h4, -⟩ | ⟨-, h4, -⟩
  · unfold cyclesLeft at h3
    rw [h4] at h3
    simp at h3
  · exact h4

/-- C36: a drop nickname event with a wait time begins the wait, so that both theorems apply. -/
theorem C36_begins {c : Ctx} {rx : Option Msg} {w : W} {m : Msg} {f : U8} {l : List U8} (h : Takes c rx w m)
    (hl : l.length ≤ 1) (hm : Request m 8 (w.v.nick :: f :: l)) (hf : f.getLsbD 5 = true ∨ f.getLsbD 7 = false)
    (hr : w.v.resetReq = false) (hok : w.tm.ok .main = true) : Waiting (Core.process c rx w).2 (l.headD 0) := by
  have hd := Drop.C38_options h hl hm
  have hi : (!f.getLsbD 5 && f.getLsbD 7) = false := by rcases hf with hf | hf <;> rw [hf] <;> simp
  rw [hi] at hd
  refine waiting_of_dropped hd hr hok ?_
  obtain ⟨w1, t1, -, -, hs, htail⟩ := takes_cycle h hm.cls
  refine (htail.steps.same .ok (by decide)).trans ?_
  rw [handler8 hm.typ]
  exact (((Foot.handleDropNicknameId (c := c) (bad := True) w1).same .ok (by decide)).trans (hs .ok (by decide)))

/-- The hypothesis of `C36_begins`: a node which has requested a reset stays in the reset state, so that an active node has not requested one,
as long as the application does not start a segment initialisation by itself. -/
theorem C36_fresh {c : Ctx} (ok : Tmr → Bool) (ps : Nat → U8) (ops : List Op) (hops : .startNodeSegmentInit ∉ ops) :
    (node c ok ps ops).v.resetReq = true → (node c ok ps ops).v.st = .reset := by
  have gen : ∀ (ops : List Op) (w : W), .startNodeSegmentInit ∉ ops → (w.v.resetReq = true → w.v.st = .reset) →
      (runOps c ops w).v.resetReq = true → (runOps c ops w).v.st = .reset := by
    intro ops
    induction ops with
    | nil => intro w _ h; exact h
    | cons op ops ih =>
      intro w hops h
      simp only [runOps]
      refine ih _ (fun hm => hops (by simp [hm])) ?_
      have hop : op ≠ .startNodeSegmentInit := fun he => hops (by simp [he])
      by_cases hp : ∃ rx, op = .process rx
      · obtain ⟨rx, rfl⟩ := hp
        have e : (stepOp c (.process rx) w).2 = (Core.process c rx w).2 := rfl
        rw [e]
        have hs := process_state c rx w
        have q1 := pre_same c rx w .st (by decide)
        have q2 := pre_same c rx w .reset (by decide)
        simp only [Comp.same] at q1 q2
        by_cases hst : w.v.st = .reset
        · intro _
          rw [hst] at hs
          exact (hs.same .st (by decide)).trans (q1.trans hst)
        · have hr : (Core.process c rx w).2.v.resetReq = w.v.resetReq := by
            refine (hs.same .reset ?_).trans q2
            cases hx : w.v.st <;> first | exact absurd hx hst | decide
          rw [hr]
          exact fun hq => absurd (h hq) hst
      · have hp : ∀ rx, op ≠ .process rx := fun rx he => hp ⟨rx, he⟩
        by_cases hi : ∃ ok, op = .init ok
        · obtain ⟨ok, rfl⟩ := hi
          have e : (stepOp c (.init ok) w).2 = (Core.init c ok w).2 := rfl
          rw [e]
          obtain ⟨w1, h1, h2⟩ := init_steps c ok w
          have h3 := h2.same .reset (by decide)
          obtain ⟨r, h4⟩ := h1.v
          simp only [Comp.same] at h3
          rw [h3, h4]
          simp
        · have s1 : (stepOp c op w).2.v.st = w.v.st :=
            op_same c op hp w .st (by cases op <;> first | exact absurd rfl (hp _) | exact absurd ⟨_, rfl⟩ hi | exact absurd rfl hop | rfl)
          have s2 : (stepOp c op w).2.v.resetReq = w.v.resetReq :=
            op_same c op hp w .reset (by cases op <;> first | exact absurd rfl (hp _) | exact absurd ⟨_, rfl⟩ hi | exact absurd rfl hop | rfl)
          rw [s1, s2]
          exact h
  exact gen (.init ok :: ops) (powerUp ps) (by simpa using hops) (by simp [powerUp])

/-- The state of the following theorem: the reset of a node was requested; the application starts a segment initialisation instead, a segment master
assigns nickname 7, and the node is told to drop it. -/
def lost : W := node Ex.ctx allOk (mem 0x60) [.process none, .process (some (Ex.msg 0 8 0 [5])), .process none,
  .startNodeSegmentInit, .process none, .process (some (Ex.msg 0 3 0 [])), .process (some (Ex.msg 0 6 0 [0xFF, 7])),
  .process (some (Ex.msg 0 8 0 [7]))]

/-- Otherwise a later reset gets lost: the variable which remembers the request is still set, and the node waits in the reset state for ever. -/
theorem C36_lost {ops : List Op} (hops : ∀ op ∈ ops, calm op) :
    lost.v.st = .reset ∧ (runOps Ex.ctx ops lost).v.st = .reset ∧ (runOps Ex.ctx ops lost).out = lost.out := by
  have h : lost.v.st = .reset ∧ lost.v.resetReq = true := by decide +kernel
  refine ⟨h.1, ?_⟩
  generalize lost = w at h
  induction ops generalizing w with
  | nil => exact ⟨h.1, rfl⟩
  | cons op ops ih =>
    have hc : calm op := hops op (by simp)
    have key : (stepOp Ex.ctx op w).2.v.st = .reset ∧ (stepOp Ex.ctx op w).2.v.resetReq = true ∧ (stepOp Ex.ctx op w).2.out = w.out := by
      by_cases hp : ∃ rx, op = .process rx
      · obtain ⟨rx, rfl⟩ := hp
        have e : (stepOp Ex.ctx (.process rx) w).2 = (Core.stateReset (preProcess Ex.ctx rx w).2).2 := process_reset h.1
        have q1 := (pre_same Ex.ctx rx w .st (by decide)).trans h.1
        have q2 := (pre_same Ex.ctx rx w .reset (by decide)).trans h.2
        have q3 := pre_out Ex.ctx rx w
        rw [e]
        generalize (preProcess Ex.ctx rx w).2 = w1 at *
        have e2 : (Core.stateReset w1).2 = w1 := by
          unfold Core.stateReset
          simp only [bind_run, get_run, timerRunning_run, whenM_run]
          rw [if_neg (by rw [q2]; simp)]
        rw [e2]
        exact ⟨q1, q2, q3⟩
      · have hp : ∀ rx, op ≠ .process rx := fun rx he => hp ⟨rx, he⟩
        refine ⟨(op_same Ex.ctx op hp w .st ?_).trans h.1, (op_same Ex.ctx op hp w .reset ?_).trans h.2, calm_out Ex.ctx op hc hp w⟩ <;>
          cases op <;> first | exact hc.elim | exact absurd rfl (hp _) | rfl
    simp only [runOps]
    obtain ⟨h1, h2⟩ := ih (fun o ho => hops o (by simp [ho])) _ ⟨key.1, key.2.1⟩
    exact ⟨h1, h2.trans key.2.2⟩

/-- A wait of 3 seconds in the example. -/
example : Waiting (node Ex.ctx allOk (mem 0x60) [.process none, .process (some (Ex.msg 0 8 0 [5, 0x20, 3]))]) 3 := by
  refine ⟨by decide +kernel, by decide +kernel, by decide +kernel, by decide +kernel, by decide +kernel⟩

end Vscp.Sleep
