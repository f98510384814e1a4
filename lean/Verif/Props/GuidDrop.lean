/-
Property theorems: drop of the nickname by GUID (C37).
-/
import Verif.Props.Sleep

namespace Vscp.GuidDrop
open M Spec Transport Safety

/-! ### The handler -/

/-- The timers after the begin of the handling of a frame. -/
def tm1 (c : Ctx) (m : Msg) (w : W) : Timers :=
  if m.data[0] = 0 ∧ w.tm.ok .guidDrop = true then { w.tm with rem := fun x => if x = .guidDrop then c.multiTimeout else w.tm.rem x }
  else w.tm

/-- The bytes of the frame match. -/
def part (c : Ctx) (m : Msg) (w : W) : Bool :=
  decide (m.data[1] = (DevData.getGuid c (15 - 4 * m.data[0].toNat - 0) w).1 ∧ m.data[2] = (DevData.getGuid c (15 - 4 * m.data[0].toNat - 1) w).1 ∧
    m.data[3] = (DevData.getGuid c (15 - 4 * m.data[0].toNat - 2) w).1 ∧ m.data[4] = (DevData.getGuid c (15 - 4 * m.data[0].toNat - 3) w).1)

/-- The set of matching frames. -/
def acc (c : Ctx) (m : Msg) (w : W) : U8 :=
  if part c m w then (if m.data[0] = 0 then 0 else w.v.guidSt) ||| (1 <<< m.data[0].toNat)
  else (if m.data[0] = 0 then 0 else w.v.guidSt)

/-- What a complete GUID does. -/
def effect (c : Ctx) : M Unit := do
  let w ← get
  (if c.silent ∧ w.v.st = .startup then Core.startNodeSegmentInit c
   else do
    Core.writeNicknameId c Core.NOT_INIT
    Core.changeToStateReset 0)

theorem getGuid_congr {c : Ctx} {w w' : W} (h : w'.ps = w.ps) (i : Nat) : (DevData.getGuid c i w').1 = (DevData.getGuid c i w).1 := by
  unfold DevData.getGuid Ps.readGuid Ps.readIdx
  simp only [ite_run, psRead8_run, pure_run, h]
  split <;> (try split) <;> rfl

theorem part_run (c : Ctx) (m : Msg) (w w' : W) (h : w'.ps = w.ps) :
    Core.guidPartEqual c m m.data[0].toNat w' = (part c m w, w') := by
  have hg : ∀ i w', DevData.getGuid c i w' = ((DevData.getGuid c i w').1, w') := fun i w' => by
    rw [Prod.ext_iff]; exact ⟨rfl, getGuid_snd c i w'⟩
  unfold Core.guidPartEqual
  rw [bind_run, hg]
  dsimp only
  rw [bind_run, hg]
  dsimp only
  rw [bind_run, hg]
  dsimp only
  rw [bind_run, hg]
  dsimp only
  rw [pure_run]
  unfold part
  simp only [getGuid_snd, getGuid_congr h]

theorem handle_run (c : Ctx) (m : Msg) (w : W) (hm : m.size = 5 ∧ m.data[0].toNat < 4) :
    (Core.handleGuidDropNickname c m w).2 =
      if (tm1 c m w).ok .guidDrop = true ∧ (tm1 c m w).rem .guidDrop ≠ 0 then
        (if m.data[0] = 3 ∧ acc c m w = 0x0F then
          (effect c { w with v := { w.v with guidSt := 0 }, tm := { (tm1 c m w) with rem := fun x => if x = .guidDrop then 0 else (tm1 c m w).rem x } }).2
        else { w with v := { w.v with guidSt := acc c m w }, tm := tm1 c m w })
      else { w with v := { w.v with guidSt := 0 }, tm := tm1 c m w } := by
  unfold Core.handleGuidDropNickname
  rw [whenM_run, if_pos hm, bind_run, whenM_run]
  obtain ⟨w1, hw1⟩ : ∃ w1 : W, w1 = { w with v := { w.v with guidSt := if m.data[0] = 0 then 0 else w.v.guidSt }, tm := tm1 c m w } := ⟨_, rfl⟩
  have e1 : (if m.data[0] = 0 then ((do
      setV fun v => { v with guidSt := 0 }
      timerStart .guidDrop c.multiTimeout) : M Unit) w else ((), w)).2 = w1 := by
    rw [hw1]
    unfold tm1
    by_cases h0 : m.data[0] = 0
    · rw [if_pos h0, bind_run, setV_run, timerStart_run, if_pos h0]
      dsimp only
      by_cases hk : w.tm.ok .guidDrop = true
      · rw [if_pos hk, if_pos ⟨h0, hk⟩]
      · rw [if_neg hk, if_neg (fun h => hk h.2)]
    · rw [if_neg h0, if_neg h0, if_neg (fun h => h0 h.1)]
  rw [e1, bind_run, timerRunning_run]
  have ht : w1.tm = tm1 c m w := by rw [hw1]
  have hps : w1.ps = w.ps := by rw [hw1]
  have hg : w1.v.guidSt = if m.data[0] = 0 then 0 else w.v.guidSt := by rw [hw1]
  have hok : (tm1 c m w).ok = w.tm.ok := by unfold tm1; split <;> rfl
  rw [ht]
  dsimp only
  by_cases hr : (tm1 c m w).ok .guidDrop = true ∧ (tm1 c m w).rem .guidDrop ≠ 0
  · have hb : ((tm1 c m w).ok .guidDrop && (tm1 c m w).rem .guidDrop != 0) = true := by
      rw [hr.1, Bool.true_and, bne_iff_ne]; exact hr.2
    rw [if_pos hr, if_neg (by rw [hb]; simp), bind_run, part_run c m w w1 hps]
    dsimp only
    rw [bind_run, whenM_run]
    have e2 : (if part c m w = true then (setV fun v => { v with guidSt := v.guidSt ||| (1 <<< m.data[0].toNat) }) w1 else ((), w1)).2 =
        { w with v := { w.v with guidSt := acc c m w }, tm := tm1 c m w } := by
      unfold acc
      by_cases hp : part c m w = true
      · rw [if_pos hp, if_pos hp, hw1]; rfl
      · rw [if_neg hp, if_neg hp, hw1]
    rw [e2, bind_run, get_run, whenM_run]
    dsimp only
    by_cases h3 : m.data[0] = 3 ∧ acc c m w = 0x0F
    · rw [if_pos h3, if_pos h3, bind_run, timerStop_run]
      dsimp only
      rw [if_pos hr.1, bind_run, setV_run]
      rfl
    · rw [if_neg h3, if_neg h3]
  · have hb : ((tm1 c m w).ok .guidDrop && (tm1 c m w).rem .guidDrop != 0) = false := by
      cases h1 : (tm1 c m w).ok .guidDrop with
      | false => rfl
      | true =>
        rw [Bool.true_and, bne_eq_false_iff_eq]
        exact Decidable.byContradiction fun h2 => hr ⟨h1, h2⟩
    rw [if_neg hr, if_pos hb, setV_run, hw1]

/-- All handlers but this one leave the window alone. -/
theorem otherType {c : Ctx} {m : Msg} (h : m.typ.toNat ≠ 23) :
    Foot c True (protoActs.filter (fun a => a ≠ .guid ∧ a ≠ .tm .guidDrop)) (Core.handleProtocolClassType c m) := by
  unfold Core.handleProtocolClassType
  split
  · exact .whenM fun _ => .mono .handleHeartbeat (by decide)
  · exact .mono .handleNewNodeOnline (by decide)
  · exact .mono .handleProbeAck (by decide)
  · exact .mono .handleSetNicknameId (by decide)
  · exact .mono .handleDropNicknameId (by decide)
  · exact .mono .handleReadRegister (by decide)
  · exact .mono .handleWriteRegister (by decide)
  · exact .mono .handleEnterBootLoaderMode (by decide)
  · rename_i e; exact absurd e h
  · exact .mono .handlePageRead (by decide)
  · exact .mono (.handlePageWrite (fun _ => trivial)) (by decide)
  · exact .mono .handleIncrementRegister (by decide)
  · exact .mono .handleDecrementRegister (by decide)
  · exact .mono .handleWhoIsThere (by decide)
  · exact .mono .handleGetDecisionMatrixInfo (by decide)
  · exact .mono .handleExtendedPageReadRegister (by decide)
  · exact .mono (.handleExtendedPageWriteRegister (fun _ => trivial)) (by decide)
  · exact .pure _

/-- The components of the window. -/
def same (w w' : W) : Prop := w'.v.guidSt = w.v.guidSt ∧ w'.tm.rem .guidDrop = w.tm.rem .guidDrop ∧ w'.tm.ok = w.tm.ok

theorem same_of {c : Ctx} {A : List Act} {w w' : W} (hs : Steps c True A w w')
    (h : A.all (fun a => !a.touches .guid && !a.touches (.tm .guidDrop) && !a.touches .ok) = true) : same w w' := by
  have h' : ∀ a ∈ A, a.touches .guid = false ∧ a.touches (.tm .guidDrop) = false ∧ a.touches .ok = false := by
    intro a ha
    have := List.all_eq_true.mp h a ha
    simpa [Bool.and_eq_true, and_assoc] using this
  refine ⟨hs.same .guid ?_, hs.same (.tm .guidDrop) ?_, hs.same .ok ?_⟩ <;> rw [List.all_eq_true] <;> intro a ha
  · simp [(h' a ha).1]
  · simp [(h' a ha).2.1]
  · simp [(h' a ha).2.2]

theorem same_trans {w w' w'' : W} (h : same w w') (h' : same w' w'') : same w w'' :=
  ⟨h'.1.trans h.1, h'.2.1.trans h.2.1, h'.2.2.trans h.2.2⟩

theorem same_pre (c : Ctx) (rx : Option Msg) (w : W) : same w (preProcess c rx w).2 :=
  ⟨pre_same c rx w .guid (by decide), pre_same c rx w (.tm .guidDrop) (by decide), pre_same c rx w .ok (by decide)⟩

/-- A cycle either leaves the window alone, or hears a GUID drop event, whose handling is done in a state which differs from the one
before the cycle in components without relevance only. -/
theorem cycle (c : Ctx) (rx : Option Msg) (w : W) :
    same w (Core.process c rx w).2 ∨
    ∃ m w1, Hears c rx w m ∧ m.cls = 0 ∧ m.typ = 23 ∧
      (∀ k : Comp, [Comp.epoch, .tm .epoch, .lb, .rx, .lg].contains k = false → k.same w w1) ∧
      Steps c True afterActs (Core.handleGuidDropNickname c m w1).2 (Core.process c rx w).2 := by
  by_cases ha : w.v.st = .active
  · by_cases hex : ∃ m, m.cls = 0 ∧ Takes c rx w m
    · obtain ⟨m, hm, htk⟩ := hex
      obtain ⟨w1, t1, -, -, hs, htail⟩ := takes_cycle htk hm
      by_cases ht : m.typ = 23
      · right
        rw [handler23 ht] at htail
        exact ⟨m, w1, .inl htk, hm, ht, hs, htail.steps⟩
      · left
        have ht' : m.typ.toNat ≠ 23 := fun h => ht (ofToNat h rfl)
        refine same_trans ⟨hs .guid (by decide), hs (.tm .guidDrop) (by decide), hs .ok (by decide)⟩ (same_trans ?_ (same_of htail.steps (by decide)))
        exact same_of (otherType ht' w1) (by decide)
    · left
      obtain ⟨w1, t1, -, -, hs, htail⟩ := other_cycle (c := c) (rx := rx) ha (fun m hm htk => hex ⟨m, hm, htk⟩)
      exact same_trans ⟨hs .guid (by decide), hs (.tm .guidDrop) (by decide), hs .ok (by decide)⟩ (same_of htail.steps (by decide))
  · by_cases hst : w.v.st = .startup
    · have h1 := pre_same c rx w .st (by decide)
      have h2 := pre_same c rx w .nick (by decide)
      have h3 := fun k hk => pre_same c rx w k hk
      have h4 := same_pre c rx w
      simp only [Comp.same] at h1 h2
      have e : (Core.process c rx w).2 = (Core.stateStartup c (readMessage c rx w).1 (preProcess c rx w).2).2 := by
        rw [process_split, preProcess_rx]
        generalize (preProcess c rx w).2 = w1 at *
        unfold Core.dispatch
        rw [bind_run, get_run]
        simp only [h1, hst]
        rfl
      rw [e]
      generalize (preProcess c rx w).2 = w1 at *
      unfold Core.stateStartup
      rw [bind_run, get_run]
      dsimp only
      rw [ite_run]
      by_cases hn : w1.v.nick = Core.NOT_INIT
      · rw [if_pos hn, ite_run]
        by_cases hsil : c.silent = true
        · rw [if_pos hsil]
          cases hr : (readMessage c rx w).1 with
          | none => exact .inl h4
          | some m =>
            dsimp only
            rw [whenM_run]
            split
            · rename_i hc
              exact .inr ⟨m, w1, .inr ⟨hsil, hst, h2.symm.trans hn, hr⟩, hc.1, hc.2, h3, .refl _⟩
            · exact .inl h4
        · rw [if_neg hsil]
          refine .inl (same_trans h4 (same_of (c := c) (A := [.st .init, .ist, .nick]) ?_ (by decide)))
          exact Foot.bind .getStartUpControl (fun _ => .whenM fun _ => .changeToStateInit (by decide)) w1
      · rw [if_neg hn]
        refine .inl (same_trans h4 (same_of (c := c) (A := [.st .active, .tx, .tm .heartbeat]) ?_ (by decide)))
        exact Foot.changeToStateActive (by decide) w1
    · left
      refine same_trans (same_pre c rx w) ?_
      have hs := process_state c rx w
      refine same_of hs ?_
      cases hx : w.v.st <;> first | exact absurd hx ha | exact absurd hx hst | decide

/-! ### The window -/

/-- The window is open. -/
def Open (w : W) : Prop := w.tm.ok .guidDrop = true ∧ w.tm.rem .guidDrop ≠ 0

/-- A matching frame with number `k` was heard in one of the given cycles, which follow the state `w`. -/
def Heard (c : Ctx) (w : W) (ops : List Op) (k : Nat) : Prop :=
  ∃ pre rx post m, ops = pre ++ .process rx :: post ∧ Hears c rx (runOps c pre w) m ∧ guidFrame c (runOps c pre w) m k

theorem Heard.append {c : Ctx} {w : W} {ops : List Op} {k : Nat} (h : Heard c w ops k) (l : List Op) : Heard c w (ops ++ l) k := by
  obtain ⟨pre, rx, post, m, h1, h2, h3⟩ := h
  exact ⟨pre, rx, post ++ l, m, by rw [h1]; simp, h2, h3⟩

theorem part_frame {c : Ctx} {m : Msg} {w w1 : W} (hps : w1.ps = w.ps) (hc : m.cls = 0) (ht : m.typ = 23) (hs : m.size = 5)
    (h : part c m w1 = true) : guidFrame c w m m.data[0].toNat := by
  unfold part at h
  simp only [decide_eq_true_eq, getGuid_congr hps] at h
  obtain ⟨h1, h2, h3, h4⟩ := h
  refine ⟨hc, ht, hs, ?_⟩
  have e : m.data.toList.take 5 = [m.data[0], m.data[1], m.data[2], m.data[3], m.data[4]] := by
    rw [vec8_list m.data]; rfl
  show m.data.toList.take 5 = _
  rw [e, h1, h2, h3, h4]
  simp [List.range_succ]

/-- The bits of the set of matching frames. -/
theorem acc_bit {c : Ctx} {m : Msg} {w : W} (hm : m.data[0].toNat < 4) {k : Nat} (hk : k < 4) (h : (acc c m w).getLsbD k = true) :
    (k = m.data[0].toNat ∧ part c m w = true) ∨ (m.data[0] ≠ 0 ∧ w.v.guidSt.getLsbD k = true) := by
  have hs : ∀ s : U8, (if m.data[0] = 0 then (0 : U8) else s).getLsbD k = true → m.data[0] ≠ 0 ∧ s.getLsbD k = true := by
    intro s h
    by_cases h0 : m.data[0] = 0
    · rw [if_pos h0] at h; simp at h
    · rw [if_neg h0] at h; exact ⟨h0, h⟩
  unfold acc at h
  by_cases hp : part c m w = true
  · rw [if_pos hp, BitVec.getLsbD_or, Bool.or_eq_true] at h
    rcases h with h | h
    · exact .inr (hs _ h)
    · left
      refine ⟨?_, hp⟩
      generalize m.data[0].toNat = j at *
      have : ∀ j : Fin 4, ∀ k : Fin 4, ((1 : U8) <<< j.val).getLsbD k.val = true → k.val = j.val := by decide
      exact this ⟨j, hm⟩ ⟨k, hk⟩ h
  · rw [if_neg hp] at h
    exact .inr (hs _ h)

theorem getGuid_ok (c : Ctx) (m : Msg) (w : W) : (tm1 c m w).ok = w.tm.ok := by unfold tm1; split <;> rfl

theorem effect_same (c : Ctx) (w : W) : same w (effect c w).2 := by
  refine same_of (c := c) (A := [.st .init, .ist, .nick, .st .reset, .sec, .tm .main]) ?_ (by decide)
  refine Foot.bind .get (fun _ => .ite (fun _ => .startNodeSegmentInit (by decide)) fun _ => .bind (.writeNicknameId (by decide)) fun _ =>
    .changeToStateReset (by decide)) w

/-- A complete GUID. -/
theorem effect_run (c : Ctx) (w : W) (h : w.v.st = .active ∨ (c.silent = true ∧ w.v.st = .startup)) :
    (effect c w).2.v.st ≠ w.v.st ∧ (effect c w).2.v.nick = 0xFF ∧ (effect c w).2.ps (Ps.addrNickname c) = 0xFF ∧
    ((effect c w).2.v.st = .reset ∨ (c.silent = true ∧ (effect c w).2.v.st = .init)) := by
  unfold effect
  rw [bind_run, get_run]
  dsimp only
  rcases h with h | ⟨h1, h2⟩
  · rw [if_neg (by rw [h]; simp), bind_run, writeNick_run, reset_run _ _ (by simp [h])]
    simp [h, Core.NOT_INIT]
  · rw [if_pos ⟨h1, h2⟩]
    unfold Core.startNodeSegmentInit Core.changeToStateInit
    simp only [bind_run, get_run, whenM_run, h2, if_pos, ne_eq, reduceCtorEq, not_false_eq_true, emit_run, setV_run, writeNick_run, h1, Core.NOT_INIT]
    simp

/-- The handler and the window. -/
theorem handle_window {c : Ctx} {m : Msg} {w : W} (ho : Open (Core.handleGuidDropNickname c m w).2) :
    -- not for the node
    same w (Core.handleGuidDropNickname c m w).2 ∨
    (m.size = 5 ∧ m.data[0].toNat < 4 ∧ (Core.handleGuidDropNickname c m w).2.v.guidSt = acc c m w ∧
      ((m.data[0] = 0 ∧ (Core.handleGuidDropNickname c m w).2.tm.rem .guidDrop = c.multiTimeout) ∨
       (m.data[0] ≠ 0 ∧ Open w ∧ (Core.handleGuidDropNickname c m w).2.tm.rem .guidDrop = w.tm.rem .guidDrop))) := by
  by_cases hm : m.size = 5 ∧ m.data[0].toNat < 4
  · have hrun := handle_run c m w hm
    by_cases hr : (tm1 c m w).ok .guidDrop = true ∧ (tm1 c m w).rem .guidDrop ≠ 0
    · rw [if_pos hr] at hrun
      by_cases h3 : m.data[0] = 3 ∧ acc c m w = 0x0F
      · rw [if_pos h3] at hrun
        rw [hrun] at ho
        obtain ⟨-, e1, -⟩ := effect_same c { w with v := { w.v with guidSt := 0 }, tm := { (tm1 c m w) with
          rem := fun x => if x = .guidDrop then 0 else (tm1 c m w).rem x } }
        exact absurd e1 ho.2
      · rw [if_neg h3] at hrun
        right
        rw [hrun]
        refine ⟨hm.1, hm.2, rfl, ?_⟩
        by_cases h0 : m.data[0] = 0
        · left
          refine ⟨h0, ?_⟩
          have hk : w.tm.ok .guidDrop = true := by rw [← getGuid_ok c m w]; exact hr.1
          show (tm1 c m w).rem .guidDrop = _
          unfold tm1
          rw [if_pos ⟨h0, hk⟩]
          rfl
        · right
          have e : tm1 c m w = w.tm := by unfold tm1; rw [if_neg (fun h => h0 h.1)]
          rw [e] at hr
          exact ⟨h0, hr, by show (tm1 c m w).rem .guidDrop = _; rw [e]⟩
    · rw [if_neg hr] at hrun
      rw [hrun] at ho
      exact absurd ho hr
  · left
    unfold Core.handleGuidDropNickname
    rw [whenM_run, if_neg hm]
    exact ⟨rfl, rfl, rfl⟩

theorem heard_now {c : Ctx} {rx : Option Msg} {w : W} {m : Msg} {k : Nat} (h1 : Hears c rx w m) (h2 : guidFrame c w m k) :
    Heard c w [.process rx] k := ⟨[], rx, [], m, rfl, h1, h2⟩

theorem Heard.shift {c : Ctx} {w : W} {l ops : List Op} {k : Nat} (h : Heard c (runOps c l w) ops k) : Heard c w (l ++ ops) k := by
  obtain ⟨pre, rx, post, m, h1, h2, h3⟩ := h
  rw [← runOps_append] at h2 h3
  exact ⟨l ++ pre, rx, post, m, by rw [h1]; simp, h2, h3⟩

/-- An open window was opened by frame 0, not longer ago than the time-out, and only matching frames are in the set. -/
theorem opened (c : Ctx) (ops : List Op) (w : W) (h0 : w.tm.rem .guidDrop = 0) (h : Open (runOps c ops w)) :
    ∃ pre rx post, ops = pre ++ .process rx :: post ∧ (∀ ok, .init ok ∉ post) ∧
      ((runOps c ops w).tm.rem .guidDrop).toNat + elapsed post = c.multiTimeout.toNat ∧
      ∀ k, k < 4 → (runOps c ops w).v.guidSt.getLsbD k = true → Heard c (runOps c pre w) (.process rx :: post) k := by
  induction ops using snoc_induction with
  | nil => exact absurd h0 h.2
  | snoc ops op ih =>
    rw [runOps_append] at h ⊢
    simp only [runOps] at h ⊢
    have keep : same (runOps c ops w) (stepOp c op (runOps c ops w)).2 → (∀ ok, op ≠ .init ok) → elapsed [op] = 0 →
        ∃ pre rx post, ops ++ [op] = pre ++ .process rx :: post ∧ (∀ ok, .init ok ∉ post) ∧
          ((stepOp c op (runOps c ops w)).2.tm.rem .guidDrop).toNat + elapsed post = c.multiTimeout.toNat ∧
          ∀ k, k < 4 → (stepOp c op (runOps c ops w)).2.v.guidSt.getLsbD k = true → Heard c (runOps c pre w) (.process rx :: post) k := by
      intro hs hi he
      obtain ⟨s1, s2, s3⟩ := hs
      have ho : Open (runOps c ops w) := by
        unfold Open at h ⊢
        rw [s2, s3] at h
        exact h
      obtain ⟨pre, rx, post, h1, h2, h3, h4⟩ := ih ho
      refine ⟨pre, rx, post ++ [op], by rw [h1]; simp, ?_, ?_, ?_⟩
      · intro ok hm
        rcases List.mem_append.mp hm with hm | hm
        · exact h2 ok hm
        · simp only [List.mem_singleton] at hm; exact hi ok hm.symm
      · rw [s2, elapsed_append, he, Nat.add_zero]; exact h3
      · intro k hk hb
        rw [s1] at hb
        exact (h4 k hk hb).append [op]
    cases op with
    | init ok => exact absurd (init_rem c ok _ .guidDrop (by decide)) h.2
    | tick ms =>
      have e := tick_rem c ms (runOps c ops w) .guidDrop
      have hne : ((stepOp c (.tick ms) (runOps c ops w)).2.tm.rem .guidDrop).toNat ≠ 0 := fun hz => h.2 (BitVec.eq_of_toNat_eq hz)
      have ho : Open (runOps c ops w) := by
        refine ⟨h.1, fun hz => ?_⟩
        rw [e, hz] at hne
        simp at hne
      obtain ⟨pre, rx, post, h1, h2, h3, h4⟩ := ih ho
      refine ⟨pre, rx, post ++ [.tick ms], by rw [h1]; simp, ?_, ?_, ?_⟩
      · intro ok hm
        rcases List.mem_append.mp hm with hm | hm
        · exact h2 ok hm
        · simp at hm
      · rw [elapsed_append]
        simp only [elapsed]
        omega
      · intro k hk hb
        exact (h4 k hk hb).append [.tick ms]
    | process rx =>
      have e : (stepOp c (.process rx) (runOps c ops w)).2 = (Core.process c rx (runOps c ops w)).2 := rfl
      rcases cycle c rx (runOps c ops w) with hs | ⟨m, w1, hh, hc, ht, hs, hst⟩
      · exact keep hs (by simp) rfl
      · obtain ⟨a1, a2, a3⟩ := same_of hst (by decide)
        have b1 : w1.v.guidSt = (runOps c ops w).v.guidSt := hs .guid (by decide)
        have b2 : w1.tm.rem .guidDrop = (runOps c ops w).tm.rem .guidDrop := hs (.tm .guidDrop) (by decide)
        have b3 : w1.tm.ok = (runOps c ops w).tm.ok := hs .ok (by decide)
        have b4 : w1.ps = (runOps c ops w).ps := hs .ps (by decide)
        have ho' : Open (Core.handleGuidDropNickname c m w1).2 := by
          rw [e] at h
          unfold Open at h ⊢
          rw [a2, a3] at h
          exact h
        rcases handle_window ho' with h5 | ⟨h5, h6, h7, h8⟩
        · exact keep (same_trans ⟨b1, b2, b3⟩ (same_trans h5 ⟨a1, a2, a3⟩)) (by simp) rfl
        · have hp : part c m w1 = true → guidFrame c (runOps c ops w) m m.data[0].toNat := part_frame b4 hc ht h5
          rw [e, a1, a2, h7]
          rcases h8 with ⟨h8, h9⟩ | ⟨h8, h9, h10⟩
          · refine ⟨ops, rx, [], rfl, by simp, by rw [h9]; simp [elapsed], fun k hk hb => ?_⟩
            rcases acc_bit h6 hk hb with ⟨ek, hb⟩ | ⟨hb, -⟩
            · rw [ek]; exact heard_now hh (hp hb)
            · exact absurd h8 hb
          · have ho : Open (runOps c ops w) := by
              unfold Open at h9 ⊢
              rw [b2, b3] at h9
              exact h9
            obtain ⟨pre, rx', post, h1, h2, h3, h4⟩ := ih ho
            refine ⟨pre, rx', post ++ [.process rx], by rw [h1]; simp, ?_, ?_, ?_⟩
            · intro ok hm
              rcases List.mem_append.mp hm with hm | hm
              · exact h2 ok hm
              · simp at hm
            · rw [h10, b2, elapsed_append]
              simpa [elapsed] using h3
            · intro k hk hb
              rcases acc_bit h6 hk hb with ⟨ek, hb⟩ | ⟨-, hb⟩
              · rw [ek]
                have := heard_now hh (hp hb)
                rw [h1, runOps_append] at this
                exact this.shift
              · rw [b1] at hb
                exact (h4 k hk hb).append [.process rx]
    | _ =>
      refine keep ?_ (by simp) rfl
      first
        | exact ⟨rfl, rfl, rfl⟩
        | exact same_of (op_steps c _ (by simp) _) (by simp [opActs, Act.touches])

/-- A cycle which hears a GUID drop event. -/
theorem hears_cycle {c : Ctx} {rx : Option Msg} {w : W} {m : Msg} (hh : Hears c rx w m) (hc : m.cls = 0) (ht : m.typ = 23) :
    ∃ w1, (∀ k : Comp, [Comp.epoch, .tm .epoch, .lb, .rx, .lg].contains k = false → k.same w w1) ∧
      Steps c True afterActs (Core.handleGuidDropNickname c m w1).2 (Core.process c rx w).2 := by
  rcases hh with h | ⟨h1, h2, h3, h4⟩
  · obtain ⟨w1, t1, -, -, hs, htail⟩ := takes_cycle h hc
    rw [handler23 ht] at htail
    exact ⟨w1, hs, htail.steps⟩
  · refine ⟨(preProcess c rx w).2, fun k hk => pre_same c rx w k hk, ?_⟩
    have q1 := (pre_same c rx w .st (by decide)).trans h2
    have q2 := (pre_same c rx w .nick (by decide)).trans h3
    rw [process_split, preProcess_rx, h4]
    generalize (preProcess c rx w).2 = w1 at *
    have e : (Core.dispatch c (some m) w1).2 = (Core.handleGuidDropNickname c m w1).2 := by
      unfold Core.dispatch
      rw [bind_run, get_run]
      simp only [q1]
      show (Core.stateStartup c (some m) w1).2 = _
      unfold Core.stateStartup
      rw [bind_run, get_run]
      dsimp only
      rw [if_pos (show w1.v.nick = Core.NOT_INIT from q2), if_pos h1]
      rw [whenM_run, if_pos ⟨hc, ht⟩]
    rw [e]
    exact .refl _

/-- The handling of a frame which does not complete the GUID. -/
theorem handle_cases (c : Ctx) (m : Msg) (w : W) :
    ((Core.handleGuidDropNickname c m w).2.v.st = w.v.st ∧ (Core.handleGuidDropNickname c m w).2.v.nick = w.v.nick ∧
      (Core.handleGuidDropNickname c m w).2.ps = w.ps) ∨
    (m.size = 5 ∧ m.data[0] = 3 ∧ Open w ∧ acc c m w = 0x0F) := by
  by_cases hm : m.size = 5 ∧ m.data[0].toNat < 4
  · have hrun := handle_run c m w hm
    by_cases hr : (tm1 c m w).ok .guidDrop = true ∧ (tm1 c m w).rem .guidDrop ≠ 0
    · rw [if_pos hr] at hrun
      by_cases h3 : m.data[0] = 3 ∧ acc c m w = 0x0F
      · right
        have e : tm1 c m w = w.tm := by unfold tm1; rw [if_neg (fun h => by rw [h3.1] at h; simp at h)]
        rw [e] at hr
        exact ⟨hm.1, h3.1, hr, h3.2⟩
      · rw [if_neg h3] at hrun
        rw [hrun]
        exact .inl ⟨rfl, rfl, rfl⟩
    · rw [if_neg hr] at hrun
      rw [hrun]
      exact .inl ⟨rfl, rfl, rfl⟩
  · left
    unfold Core.handleGuidDropNickname
    rw [whenM_run, if_neg hm]
    exact ⟨rfl, rfl, rfl⟩

/-- C37: a GUID drop event changes the state of the node only if it is a frame 3, and a window was opened by a frame 0 less than the time-out ago,
within which matching frames with all four numbers were heard. -/
theorem C37_only {c : Ctx} {ok : Tmr → Bool} {ps : Nat → U8} {ops : List Op} {rx : Option Msg} {m : Msg}
    (hh : Hears c rx (node c ok ps ops) m) (hc : m.cls = 0) (ht : m.typ = 23)
    (hst : (Core.process c rx (node c ok ps ops)).2.v.st ≠ (node c ok ps ops).v.st) :
    m.size = 5 ∧ m.data[0] = 3 ∧
    ∃ pre rx0 post, .init ok :: ops = pre ++ .process rx0 :: post ∧ (∀ ok', .init ok' ∉ post) ∧ elapsed post < c.multiTimeout.toNat ∧
      ∀ k, k < 4 → Heard c (runOps c pre (powerUp ps)) (.process rx0 :: post ++ [.process rx]) k := by
  obtain ⟨w1, hs, hst2⟩ := hears_cycle hh hc ht
  have a1 : (Core.process c rx (node c ok ps ops)).2.v.st = (Core.handleGuidDropNickname c m w1).2.v.st := hst2.same .st (by decide)
  have b0 : w1.v.st = (node c ok ps ops).v.st := hs .st (by decide)
  have b1 : w1.v.guidSt = (node c ok ps ops).v.guidSt := hs .guid (by decide)
  have b2 : w1.tm.rem .guidDrop = (node c ok ps ops).tm.rem .guidDrop := hs (.tm .guidDrop) (by decide)
  have b3 : w1.tm.ok = (node c ok ps ops).tm.ok := hs .ok (by decide)
  have b4 : w1.ps = (node c ok ps ops).ps := hs .ps (by decide)
  rcases handle_cases c m w1 with h | ⟨h1, h2, h3, h4⟩
  · exact absurd (by rw [a1, h.1, b0]) hst
  · refine ⟨h1, h2, ?_⟩
    have ho : Open (node c ok ps ops) := by
      unfold Open at h3 ⊢
      rw [b2, b3] at h3
      exact h3
    obtain ⟨pre, rx0, post, p1, p2, p3, p4⟩ := opened c (.init ok :: ops) (powerUp ps) rfl ho
    refine ⟨pre, rx0, post, p1, p2, ?_, fun k hk => ?_⟩
    · have : ((node c ok ps ops).tm.rem .guidDrop).toNat ≠ 0 := fun hz => ho.2 (BitVec.eq_of_toNat_eq hz)
      have p3 : ((node c ok ps ops).tm.rem .guidDrop).toNat + elapsed post = c.multiTimeout.toNat := p3
      omega
    · have hb : (acc c m w1).getLsbD k = true := by
        rw [h4]
        have : ∀ k : Fin 4, (0x0F : U8).getLsbD k.val = true := by decide
        exact this ⟨k, hk⟩
      have hd : m.data[0].toNat < 4 := by rw [h2]; decide
      rcases acc_bit hd hk hb with ⟨ek, hb⟩ | ⟨-, hb⟩
      · have hn := heard_now hh (part_frame b4 hc ht h1 hb)
        rw [ek]
        have e : node c ok ps ops = runOps c (.process rx0 :: post) (runOps c pre (powerUp ps)) := by
          show runOps c (.init ok :: ops) (powerUp ps) = _
          rw [p1, runOps_append]
        rw [e] at hn
        exact hn.shift
      · rw [b1] at hb
        exact (p4 k hk hb).append [.process rx]

/-- C37: a GUID drop event which does not change the state of the node changes neither its nickname nor its persistent memory. -/
theorem C37_quiet {c : Ctx} {rx : Option Msg} {w : W} {m : Msg} (hh : Hears c rx w m) (hc : m.cls = 0) (ht : m.typ = 23)
    (hst : (Core.process c rx w).2.v.st = w.v.st) :
    (Core.process c rx w).2.v.nick = w.v.nick ∧ (Core.process c rx w).2.ps = w.ps := by
  obtain ⟨w1, hs, hst2⟩ := hears_cycle hh hc ht
  have a1 : (Core.process c rx w).2.v.st = (Core.handleGuidDropNickname c m w1).2.v.st := hst2.same .st (by decide)
  have a2 : (Core.process c rx w).2.v.nick = (Core.handleGuidDropNickname c m w1).2.v.nick := hst2.same .nick (by decide)
  have a3 : (Core.process c rx w).2.ps = (Core.handleGuidDropNickname c m w1).2.ps := hst2.same .ps (by decide)
  have b0 : w1.v.st = w.v.st := hs .st (by decide)
  have b1 : w1.v.nick = w.v.nick := hs .nick (by decide)
  have b4 : w1.ps = w.ps := hs .ps (by decide)
  rw [a2, a3, ← b1, ← b4]
  rcases handle_cases c m w1 with h | ⟨h1, h2, h3, h4⟩
  · exact h.2
  · exfalso
    have hrun := handle_run c m w1 ⟨h1, by rw [h2]; decide⟩
    have e : tm1 c m w1 = w1.tm := by unfold tm1; rw [if_neg (fun h => by rw [h2] at h; simp at h)]
    rw [e, if_pos (show w1.tm.ok .guidDrop = true ∧ w1.tm.rem .guidDrop ≠ 0 from h3), if_pos ⟨h2, h4⟩] at hrun
    have key : (Core.handleGuidDropNickname c m w1).2.v.st ≠ w1.v.st := by
      have hact : w1.v.st = .active ∨ (c.silent = true ∧ w1.v.st = .startup) := by
        rw [b0]
        rcases hh with h | h
        · exact .inl h.1
        · exact .inr ⟨h.1, h.2.1⟩
      rw [hrun]
      obtain ⟨w2, hw2⟩ : ∃ w2 : W, w2 = { w1 with v := { w1.v with guidSt := 0 }, tm := { w1.tm with
          rem := fun x => if x = .guidDrop then 0 else w1.tm.rem x } } := ⟨_, rfl⟩
      rw [← hw2]
      have e2 : w1.v.st = w2.v.st := by rw [hw2]
      rw [e2] at hact ⊢
      exact (effect_run c w2 hact).1
    exact key (by rw [← a1, b0]; exact hst)

/-- A matching frame. -/
theorem frame_part {c : Ctx} {m : Msg} {w w1 : W} {k : Nat} (hps : w1.ps = w.ps) (h : guidFrame c w m k) (hk : k < 4) :
    m.cls = 0 ∧ m.typ = 23 ∧ m.size = 5 ∧ m.data[0] = BitVec.ofNat 8 k ∧ part c m w1 = true := by
  obtain ⟨h1, h2, h3, h4⟩ := h
  have h3 : m.size = 5 := by simpa using h3
  have e : m.data.toList.take 5 = [m.data[0], m.data[1], m.data[2], m.data[3], m.data[4]] := by
    rw [vec8_list m.data]; rfl
  have h4 : m.data.toList.take 5 = BitVec.ofNat 8 k :: List.map (fun i => (DevData.getGuid c (15 - 4 * k - i) w).1) (List.range 4) := h4
  rw [e] at h4
  simp only [List.range_succ, List.range_zero, List.nil_append, List.cons_append, List.map_cons, List.map_nil, List.cons.injEq, and_true] at h4
  obtain ⟨d0, d1, d2, d3, d4⟩ := h4
  refine ⟨h1, h2, h3, d0, ?_⟩
  have e0 : m.data[0].toNat = k := by rw [d0]; simp; omega
  unfold part
  simp only [decide_eq_true_eq, getGuid_congr hps, e0]
  exact ⟨d1, d2, d3, d4⟩

/-- A matching frame in its turn. -/
theorem progress {c : Ctx} {rx : Option Msg} {w : W} {m : Msg} {k : Nat} (hh : Hears c rx w m) (hf : guidFrame c w m k) (hk : k < 3)
    (hok : w.tm.ok .guidDrop = true) (hr : (k = 0 ∧ c.multiTimeout ≠ 0) ∨ (0 < k ∧ w.tm.rem .guidDrop ≠ 0 ∧ w.v.guidSt = BitVec.ofNat 8 (2 ^ k - 1))) :
    (Core.process c rx w).2.tm.ok = w.tm.ok ∧ (Core.process c rx w).2.v.guidSt = BitVec.ofNat 8 (2 ^ (k + 1) - 1) ∧
    (Core.process c rx w).2.tm.rem .guidDrop = if k = 0 then c.multiTimeout else w.tm.rem .guidDrop := by
  have hc := hf.cls
  have ht := hf.typ
  obtain ⟨w1, hs, hst⟩ := hears_cycle hh hc ht
  obtain ⟨a1, a2, a3⟩ := same_of hst (by decide)
  have b1 : w1.v.guidSt = w.v.guidSt := hs .guid (by decide)
  have b2 : w1.tm.rem .guidDrop = w.tm.rem .guidDrop := hs (.tm .guidDrop) (by decide)
  have b3 : w1.tm.ok = w.tm.ok := hs .ok (by decide)
  have b4 : w1.ps = w.ps := hs .ps (by decide)
  obtain ⟨-, -, h5, h6, h7⟩ := frame_part b4 hf (by omega)
  have hd : m.data[0].toNat = k := by rw [h6]; simp; omega
  rw [a1, a2, a3, ← b2, ← b3]
  rw [← b1, ← b2] at hr
  rw [← b3] at hok
  have hrun := handle_run c m w1 ⟨h5, by omega⟩
  have hne : m.data[0] ≠ 3 := fun h => by rw [h] at hd; simp at hd; omega
  rcases hr with ⟨rfl, h0⟩ | ⟨hk0, h0, h1⟩
  · have hd0 : m.data[0] = 0 := h6
    have e : tm1 c m w1 = { w1.tm with rem := fun x => if x = .guidDrop then c.multiTimeout else w1.tm.rem x } := by
      unfold tm1; rw [if_pos ⟨hd0, hok⟩]
    have e2 : acc c m w1 = 1 := by unfold acc; rw [if_pos h7, if_pos hd0, hd]; rfl
    rw [e, if_pos ⟨hok, by simpa using h0⟩, if_neg (fun h => hne h.1), e2] at hrun
    rw [hrun]
    exact ⟨rfl, rfl, rfl⟩
  · have hd0 : m.data[0] ≠ 0 := fun h => by rw [h] at hd; simp at hd; omega
    have e : tm1 c m w1 = w1.tm := by unfold tm1; rw [if_neg (fun h => hd0 h.1)]
    have e2 : acc c m w1 = BitVec.ofNat 8 (2 ^ (k + 1) - 1) := by
      unfold acc; rw [if_pos h7, if_neg hd0, hd, h1]
      have : ∀ k : Fin 3, (BitVec.ofNat 8 (2 ^ k.val - 1) ||| ((1 : U8) <<< k.val)) = BitVec.ofNat 8 (2 ^ (k.val + 1) - 1) := by decide
      exact this ⟨k, hk⟩
    rw [e, if_pos ⟨hok, h0⟩, if_neg (fun h => hne h.1), e2] at hrun
    rw [hrun, if_neg (by omega)]
    exact ⟨rfl, rfl, rfl⟩

/-- The last frame. -/
theorem completes {c : Ctx} {rx : Option Msg} {w : W} {m : Msg} (hh : Hears c rx w m) (hf : guidFrame c w m 3)
    (hok : w.tm.ok .guidDrop = true) (hr : w.tm.rem .guidDrop ≠ 0) (hg : w.v.guidSt = 7) :
    (Core.process c rx w).2.v.nick = 0xFF ∧ (Core.process c rx w).2.ps (Ps.addrNickname c) = 0xFF ∧
    (Core.process c rx w).2.v.st = if w.v.st = .active then .reset else .init := by
  have hc := hf.cls
  have ht := hf.typ
  obtain ⟨w1, hs, hst⟩ := hears_cycle hh hc ht
  have b0 : w1.v.st = w.v.st := hs .st (by decide)
  have b1 : w1.v.guidSt = w.v.guidSt := hs .guid (by decide)
  have b2 : w1.tm.rem .guidDrop = w.tm.rem .guidDrop := hs (.tm .guidDrop) (by decide)
  have b3 : w1.tm.ok = w.tm.ok := hs .ok (by decide)
  have b4 : w1.ps = w.ps := hs .ps (by decide)
  have a1 : (Core.process c rx w).2.v.st = (Core.handleGuidDropNickname c m w1).2.v.st := hst.same .st (by decide)
  have a2 : (Core.process c rx w).2.v.nick = (Core.handleGuidDropNickname c m w1).2.v.nick := hst.same .nick (by decide)
  have a3 : (Core.process c rx w).2.ps = (Core.handleGuidDropNickname c m w1).2.ps := hst.same .ps (by decide)
  obtain ⟨-, -, h5, h6, h7⟩ := frame_part b4 hf (by omega)
  have h6 : m.data[0] = 3 := h6
  have hrun := handle_run c m w1 ⟨h5, by rw [h6]; decide⟩
  have e : tm1 c m w1 = w1.tm := by unfold tm1; rw [if_neg (fun h => by rw [h6] at h; simp at h)]
  have e2 : acc c m w1 = 0x0F := by
    unfold acc; rw [if_pos h7, h6, b1, hg]; rfl
  rw [e, if_pos ⟨by rw [b3]; exact hok, by rw [b2]; exact hr⟩, if_pos ⟨h6, e2⟩] at hrun
  rw [a1, a2, a3, hrun, ← b0]
  obtain ⟨w2, hw2⟩ : ∃ w2 : W, w2 = { w1 with v := { w1.v with guidSt := 0 }, tm := { w1.tm with
      rem := fun x => if x = .guidDrop then 0 else w1.tm.rem x } } := ⟨_, rfl⟩
  rw [← hw2]
  have e2 : w1.v.st = w2.v.st := by rw [hw2]
  rw [e2]
  have hact : w2.v.st = .active ∨ (c.silent = true ∧ w2.v.st = .startup) := by
    rw [← e2, b0]
    rcases hh with h | h
    · exact .inl h.1
    · exact .inr ⟨h.1, h.2.1⟩
  obtain ⟨-, r1, r2, -⟩ := effect_run c w2 hact
  refine ⟨r1, r2, ?_⟩
  unfold effect
  rw [bind_run, get_run]
  dsimp only
  rcases hact with h | ⟨h1, h2⟩
  · rw [if_neg (by rw [h]; simp), bind_run, writeNick_run, reset_run _ _ (by simp [h]), if_pos h]
  · rw [if_pos ⟨h1, h2⟩, if_neg (by rw [h2]; simp)]
    unfold Core.startNodeSegmentInit Core.changeToStateInit
    simp only [bind_run, get_run, whenM_run, h2, if_pos, ne_eq, reduceCtorEq, not_false_eq_true, emit_run, setV_run, writeNick_run]

/-- The state after a frame and a while. -/
def after (c : Ctx) (rx : Option Msg) (t : Nat) (w : W) : W := runOps c [.process rx, .tick t] w

theorem after_keep (c : Ctx) (rx : Option Msg) (t : Nat) (w : W) :
    (after c rx t w).tm.ok = (Core.process c rx w).2.tm.ok ∧ (after c rx t w).v.guidSt = (Core.process c rx w).2.v.guidSt ∧
    ((after c rx t w).tm.rem .guidDrop).toNat = ((Core.process c rx w).2.tm.rem .guidDrop).toNat - t :=
  ⟨rfl, rfl, tick_rem c t (Core.process c rx w).2 .guidDrop⟩

/-- C37: the four matching frames in sequence, all within the time-out, drop the nickname: an active node erases it and restarts, a silent node without a
nickname starts to look for one. -/
theorem C37_drops {c : Ctx} {w : W} {rx0 rx1 rx2 rx3 : Option Msg} {m0 m1 m2 m3 : Msg} {t1 t2 t3 : Nat} {w1 w2 w3 : W}
    (hok : w.tm.ok .guidDrop = true) (ht : t1 + t2 + t3 < c.multiTimeout.toNat)
    (h0 : Hears c rx0 w m0) (f0 : guidFrame c w m0 0) (e1 : w1 = after c rx0 t1 w)
    (h1 : Hears c rx1 w1 m1) (f1 : guidFrame c w1 m1 1) (e2 : w2 = after c rx1 t2 w1)
    (h2 : Hears c rx2 w2 m2) (f2 : guidFrame c w2 m2 2) (e3 : w3 = after c rx2 t3 w2)
    (h3 : Hears c rx3 w3 m3) (f3 : guidFrame c w3 m3 3) :
    (Core.process c rx3 w3).2.v.nick = 0xFF ∧ (Core.process c rx3 w3).2.ps (Ps.addrNickname c) = 0xFF ∧
    (Core.process c rx3 w3).2.v.st = if w3.v.st = .active then .reset else .init := by
  obtain ⟨p1, p2, p3⟩ := progress h0 f0 (by omega) hok (.inl ⟨rfl, fun h => by rw [h] at ht; simp at ht⟩)
  obtain ⟨q1, q2, q3⟩ := after_keep c rx0 t1 w
  rw [← e1] at q1 q2 q3
  rw [p1] at q1; rw [p2] at q2; rw [p3, if_pos rfl] at q3
  obtain ⟨p1, p2, p3⟩ := progress h1 f1 (by omega) (by rw [q1]; exact hok) (.inr ⟨by omega, fun h => by rw [h] at q3; simp at q3; omega, q2⟩)
  obtain ⟨r1, r2, r3⟩ := after_keep c rx1 t2 w1
  rw [← e2] at r1 r2 r3
  rw [p1, q1] at r1; rw [p2] at r2; rw [p3, if_neg (by omega), q3] at r3
  obtain ⟨p1, p2, p3⟩ := progress h2 f2 (by omega) (by rw [r1]; exact hok) (.inr ⟨by omega, fun h => by rw [h] at r3; simp at r3; omega, r2⟩)
  obtain ⟨s1, s2, s3⟩ := after_keep c rx2 t3 w2
  rw [← e3] at s1 s2 s3
  rw [p1, r1] at s1; rw [p2] at s2; rw [p3, if_neg (by omega), r3] at s3
  exact completes h3 f3 (by rw [s1]; exact hok) (fun h => by rw [h] at s3; simp at s3; omega) s2

/-- The frames of the example. -/
def frm (l : List U8) : Option Msg := some (Ex.msg 0 23 0 l)

/-- A node with a GUID of zeros in its memory is dropped. -/
def exOps : List Op := [.process none, .process (frm [0, 0, 0, 0, 0]), .tick 400, .process (frm [1, 0, 0, 0, 0]), .tick 400,
  .process (frm [2, 0, 0, 0, 0]), .tick 199]

example : (node Ex.ctx allOk (mem 0x60) exOps).v.st = .active ∧
    (Core.process Ex.ctx (frm [3, 0, 0, 0, 0]) (node Ex.ctx allOk (mem 0x60) exOps)).2.v.st = .reset := by decide +kernel

/-- One millisecond later the window is closed. -/
example : (Core.process Ex.ctx (frm [3, 0, 0, 0, 0]) (node Ex.ctx allOk (mem 0x60) (exOps ++ [.tick 1]))).2.v.st = .active := by decide +kernel

/-- The hypothesis of `C37_only` holds in the example. -/
example : Hears Ex.ctx (frm [3, 0, 0, 0, 0]) (node Ex.ctx allOk (mem 0x60) exOps) (Ex.msg 0 23 0 [3, 0, 0, 0, 0]) := by
  refine .inl ⟨by decide +kernel, by decide +kernel, by decide +kernel⟩

/-- The frame which completes the GUID need not match itself: it is enough that a matching frame 3 came before. -/
example : (Core.process Ex.ctx (frm [3, 9, 9, 9, 9]) (node Ex.ctx allOk (mem 0x60)
    [.process none, .process (frm [0, 0, 0, 0, 0]), .process (frm [3, 0, 0, 0, 0]), .process (frm [1, 0, 0, 0, 0]),
     .process (frm [2, 0, 0, 0, 0])])).2.v.st = .reset := by decide +kernel

end Vscp.GuidDrop
