/-
Property theorems: a nickname assigned by the segment master (C108).
-/
import Verif.Props.Discovery
import Verif.Spec.Master

namespace Vscp.MasterProps
open M Spec Transport Safety Discovery Spec.Master

/-- A call other than a cycle, an initialisation or a restart of the discovery changes nothing of the wait but its time. -/
theorem op_still {c : Ctx} {op : Op} (hp : ∀ rx, op ≠ .process rx) (hi : ∀ ok, op ≠ .init ok) (hs : op ≠ .startNodeSegmentInit) (w : W) :
    (stepOp c op w).2.v.st = w.v.st ∧ (stepOp c op w).2.v.ist = w.v.ist ∧ (stepOp c op w).2.tm.ok = w.tm.ok ∧
      ((stepOp c op w).2.tm.rem .main).toNat = (w.tm.rem .main).toNat - elapsed [op] := by
  have h1 := op_same c op hp w .st (by cases op <;> first | exact absurd rfl (hp _) | exact absurd rfl (hi _) | exact absurd rfl hs | rfl)
  have h2 := op_same c op hp w .init (by cases op <;> first | exact absurd rfl (hp _) | exact absurd rfl (hi _) | exact absurd rfl hs | rfl)
  have h3 := op_same c op hp w .ok (by cases op <;> first | exact absurd rfl (hp _) | exact absurd rfl (hi _) | exact absurd rfl hs | rfl)
  refine ⟨h1, h2.1, h3, ?_⟩
  by_cases ht : ∃ ms, op = .tick ms
  · obtain ⟨ms, rfl⟩ := ht
    exact tick_rem c ms w .main
  · have h4 := op_same c op hp w (.tm .main) (by
      cases op <;> first | exact absurd rfl (hp _) | exact absurd rfl (hi _) | exact absurd rfl hs | exact absurd ⟨_, rfl⟩ ht | rfl)
    have h5 : elapsed [op] = 0 := by cases op <;> first | rfl | exact absurd ⟨_, rfl⟩ ht
    rw [h5]
    exact congrArg BitVec.toNat h4

theorem running_iff {w : W} (hok : w.tm.ok .main = true) : (disc w).running = true ↔ (w.tm.rem .main).toNat ≠ 0 := by
  show (w.tm.ok .main && w.tm.rem .main != 0) = true ↔ _
  rw [hok, Bool.true_and, bne_iff_ne, ne_eq, ne_eq]
  exact not_congr ⟨fun h => by rw [h]; rfl, fun h => BitVec.eq_of_toNat_eq h⟩

/-- A cycle of a node which waits for the answer of the segment master. -/
theorem cycle_wait (c : Ctx) (rx : Option Msg) (w : W) (h : w.v.st = .init) (hi : w.v.ist = .probeMasterWait) :
    (Core.process c rx w).2.out = w.out ∧
    disc (Core.process c rx w).2 =
      if (disc w).running = false then { disc w with ist := .probe, probe := c.startProbe }
      else if (readMessage c rx w).1.any (fun m => decide (ackFrom m 0)) = true then { disc w with st := .preActive } else disc w := by
  rw [process_init h]
  have hd := disc_pre c rx w
  have ho := pre_out c rx w
  have hp : (preProcess c rx w).2.v.ist = .probeMasterWait := by
    have := congrArg Disc.ist hd
    exact this.trans hi
  have ha : (readMessage c rx w).1.any (fun m => decide (ackFrom m 0)) = true ↔ Core.isProbeAckOf (readMessage c rx w).1 Core.MASTER = true := by
    rw [isProbeAckOf_iff, Option.any_eq_true]
    simp only [decide_eq_true_eq]
    exact Iff.rfl
  rw [← hd, ← ho]
  generalize (preProcess c rx w).2 = w1 at *
  unfold Core.stateInit
  rw [bind_run, get_run]
  dsimp only
  rw [hp]
  dsimp only
  rw [bind_run, timerRunning_run]
  dsimp only
  have hrun : (disc w1).running = (w1.tm.ok .main && w1.tm.rem .main != 0) := rfl
  rw [hrun]
  cases (w1.tm.ok .main && w1.tm.rem .main != 0) with
  | false => exact ⟨rfl, rfl⟩
  | true =>
    rw [if_neg (by simp), if_neg (by simp), whenM_run]
    by_cases hk : Core.isProbeAckOf (readMessage c rx w).1 Core.MASTER = true
    · rw [if_pos hk, if_pos (ha.mpr hk)]
      exact ⟨rfl, rfl⟩
    · rw [if_neg hk, if_neg (fun h => hk (ha.mp h))]
      exact ⟨rfl, rfl⟩

/-- The event with which the node takes a nickname, as the program tests it. -/
def sets (m : Msg) : Prop := m.cls = 0 ∧ m.typ = 6 ∧ m.oAddr = 0 ∧ m.data[0] = 0xFF

/-- A cycle of a pre-active node whose time is over, or without an event which sets its nickname. -/
theorem cycle_pre_none (c : Ctx) (rx : Option Msg) (w : W) (h : w.v.st = .preActive)
    (hn : (disc w).running = false ∨ ∀ m, (readMessage c rx w).1 = some m → ¬sets m) :
    disc (Core.process c rx w).2 = if (disc w).running = false then { disc w with st := .init, ist := .probe, probe := c.startProbe } else disc w := by
  rw [process_preActive h]
  have hd := disc_pre c rx w
  have hst : (preProcess c rx w).2.v.st = .preActive := by
    have := congrArg Disc.st hd
    exact this.trans h
  rw [← hd] at hn ⊢
  generalize (preProcess c rx w).2 = w1 at *
  unfold Core.statePreActive
  rw [bind_run, timerRunning_run]
  dsimp only
  have hrun : (disc w1).running = (w1.tm.ok .main && w1.tm.rem .main != 0) := rfl
  rw [hrun] at hn ⊢
  cases hb : (w1.tm.ok .main && w1.tm.rem .main != 0) with
  | false =>
    rw [if_pos rfl, if_pos rfl]
    obtain ⟨h1, h2, h3, h4⟩ := changeInit_run c false w1 (by rw [hst]; simp)
    unfold disc
    rw [h1, h2, h3, h4]
    rfl
  | true =>
    have hn := hn.resolve_left (by rw [hb]; simp)
    rw [if_neg (by simp), if_neg (by simp)]
    cases hr : (readMessage c rx w).1 with
    | none => rfl
    | some m =>
      dsimp only
      have hm : ¬(m.cls = CLASS_PROTOCOL ∧ m.typ = 6 ∧ m.oAddr = Core.MASTER ∧ m.data[0] = Core.NOT_INIT) := hn m hr
      rw [whenM_run, if_neg hm]

/-- A cycle of a pre-active node in which its nickname is set. -/
theorem cycle_pre_set (c : Ctx) (rx : Option Msg) (w : W) (h : w.v.st = .preActive) (hb : (disc w).running = true) {m : Msg}
    (hr : (readMessage c rx w).1 = some m) (hm : sets m) : Took c m.data[1] w (Core.process c rx w).2 := by
  rw [process_preActive h]
  have hd := disc_pre c rx w
  have ho := pre_out c rx w
  have hst : (preProcess c rx w).2.v.st = .preActive := by
    have := congrArg Disc.st hd
    exact this.trans h
  rw [← hd] at hb
  unfold Took
  rw [← ho]
  generalize (preProcess c rx w).2 = w1 at *
  unfold Core.statePreActive
  rw [bind_run, timerRunning_run]
  dsimp only
  have hb : (w1.tm.ok .main && w1.tm.rem .main != 0) = true := hb
  have hok : w1.tm.ok .main = true := by
    rw [Bool.and_eq_true] at hb
    exact hb.1
  rw [hb, if_neg (by simp), hr]
  dsimp only
  have hm' : m.cls = CLASS_PROTOCOL ∧ m.typ = 6 ∧ m.oAddr = Core.MASTER ∧ m.data[0] = Core.NOT_INIT := hm
  rw [whenM_run, if_pos hm', bind_run, timerStop_run]
  dsimp only
  rw [if_pos hok, bind_run, writeNick_run]
  dsimp only
  rw [bind_run, txVoid_run _ _ _ _ (by simp)]
  unfold Core.changeToStateActive
  rw [bind_run, get_run]
  dsimp only
  rw [whenM_run, if_pos (by rw [sent_v]; simp [hst]), bind_run, emit_run, bind_run, setV_run, bind_run, txVoid_run _ _ _ _ (by simp), whenM_run]
  dsimp only
  split
  · rw [timerStart_run]
    dsimp only
    split <;> simp [frame]
  · simp [frame]

/-- C108: A node which asked the segment master fares as specified, over every history in which the application neither initialises it nor restarts
its discovery: it waits until the segment master has answered and assigned a nickname, takes the assigned nickname - and nothing else -, and looks
for one by itself when the time is over.  The hypothesis about the events which set nicknames is needed, see `C108_short_violated`. -/
theorem C108_fate_partial (c : Ctx) (ops : List Op) (w : W) (a : Bool) (left : Nat) (hw : Waiting a left w)
    (hops : ∀ op ∈ ops, (∀ ok, op ≠ .init ok) ∧ op ≠ .startNodeSegmentInit)
    (hc : ∀ m, .cycle (some m) ∈ seen c w ops → complete m) :
    match fate a left (seen c w ops) with
    | .waits a' left' => Waiting a' left' (runOps c ops w)
    | .alone rest => ∃ pre rx post, ops = pre ++ .process rx :: post ∧ post.length = rest ∧ OnItsOwn c (runOps c (pre ++ [.process rx]) w)
    | .assigned q rest => ∃ pre rx post, ops = pre ++ .process rx :: post ∧ post.length = rest ∧
        Took c q (runOps c pre w) (runOps c (pre ++ [.process rx]) w) := by
  induction ops generalizing w a left with
  | nil => exact hw
  | cons op ops ih =>
    have hlen : ∀ w : W, (seen c w ops).length = ops.length := by
      intro w
      clear ih hc hops hw
      induction ops generalizing w with
      | nil => rfl
      | cons op ops ih => cases op <;> simp [seen, ih]
    have hrest := fun op' hm => hops op' (List.mem_cons_of_mem op hm)
    obtain ⟨hw1, hok, hleft⟩ := hw
    -- a call after which the node still waits
    have next : ∀ (a' : Bool) (left' : Nat) (x : Seen), Waiting a' left' (stepOp c op w).2 → seen c w (op :: ops) = x :: seen c (stepOp c op w).2 ops →
        fate a left (seen c w (op :: ops)) = fate a' left' (seen c (stepOp c op w).2 ops) →
        match fate a left (seen c w (op :: ops)) with
        | .waits a' left' => Waiting a' left' (runOps c (op :: ops) w)
        | .alone rest => ∃ pre rx post, op :: ops = pre ++ .process rx :: post ∧ post.length = rest ∧ OnItsOwn c (runOps c (pre ++ [.process rx]) w)
        | .assigned q rest => ∃ pre rx post, op :: ops = pre ++ .process rx :: post ∧ post.length = rest ∧
            Took c q (runOps c pre w) (runOps c (pre ++ [.process rx]) w) := by
      intro a' left' x hw' hx hf
      have hi := ih (stepOp c op w).2 a' left' hw' hrest (fun m hm => hc m (by rw [hx]; exact List.mem_cons_of_mem _ hm))
      rw [hf]
      revert hi
      cases fate a' left' (seen c (stepOp c op w).2 ops) with
      | waits => exact id
      | alone rest =>
        rintro ⟨pre, rx, post, e, hl, ht⟩
        exact ⟨op :: pre, rx, post, by rw [e]; rfl, hl, ht⟩
      | assigned q rest =>
        rintro ⟨pre, rx, post, e, hl, ht⟩
        exact ⟨op :: pre, rx, post, by rw [e]; rfl, hl, ht⟩
    by_cases hp : ∃ rx, op = .process rx
    · obtain ⟨rx, rfl⟩ := hp
      have hx : seen c w (.process rx :: ops) = .cycle (readMessage c rx w).1 :: seen c (stepOp c (.process rx) w).2 ops := rfl
      have er : (stepOp c (.process rx) w).2 = (Core.process c rx w).2 := rfl
      have hfate : fate a left (seen c w (.process rx :: ops)) =
          if left = 0 then .alone ops.length
          else if a then
            match (readMessage c rx w).1.bind assigns with
            | some q => .assigned q ops.length
            | none => fate true left (seen c (stepOp c (.process rx) w).2 ops)
          else fate ((readMessage c rx w).1.any fun m => decide (ackFrom m 0)) left (seen c (stepOp c (.process rx) w).2 ops) := by
        rw [hx]
        show (if left = 0 then Fate.alone _ else _) = _
        rw [hlen]
        rfl
      by_cases h0 : left = 0
      · rw [hfate, if_pos h0]
        refine ⟨[], rx, ops, rfl, rfl, ?_⟩
        show OnItsOwn c (Core.process c rx w).2
        have hrun : (disc w).running = false := by
          cases h : (disc w).running with
          | false => rfl
          | true => exact absurd (hleft.trans h0) ((running_iff hok).mp h)
        cases a with
        | true =>
          have hd := cycle_pre_none c rx w hw1 (.inl hrun)
          rw [if_pos hrun] at hd
          exact ⟨congrArg Disc.st hd, congrArg Disc.ist hd, congrArg Disc.probe hd⟩
        | false =>
          have hd := (cycle_wait c rx w hw1.1 hw1.2).2
          rw [if_pos hrun] at hd
          exact ⟨(congrArg Disc.st hd).trans hw1.1, congrArg Disc.ist hd, congrArg Disc.probe hd⟩
      · have hrun : (disc w).running = true := (running_iff hok).mpr (by rw [hleft]; exact h0)
        have hok' : (Core.process c rx w).2.tm.ok .main = true := (congrFun (process_ok c rx w) .main).trans hok
        cases a with
        | true =>
          by_cases hs : ∃ m, (readMessage c rx w).1 = some m ∧ sets m
          · obtain ⟨m, hr, hm⟩ := hs
            have hcm : 2 ≤ m.size.toNat := hc m (by rw [hx, hr]; exact List.mem_cons_self ..) ⟨hm.1, hm.2.1, hm.2.2.1⟩
            have has : (readMessage c rx w).1.bind assigns = some m.data[1] := by
              rw [hr]
              show (if _ then _ else _) = _
              rw [if_pos ⟨hm.1, hm.2.1, hm.2.2.1, hcm, hm.2.2.2⟩]
            rw [hfate, if_neg h0, if_pos rfl, has]
            exact ⟨[], rx, ops, rfl, rfl, cycle_pre_set c rx w hw1 hrun hr hm⟩
          · have hs : ∀ m, (readMessage c rx w).1 = some m → ¬sets m := fun m h1 h2 => hs ⟨m, h1, h2⟩
            have has : (readMessage c rx w).1.bind assigns = none := by
              cases hr : (readMessage c rx w).1 with
              | none => rfl
              | some m =>
                show (if _ then _ else _) = _
                rw [if_neg fun ⟨h1, h2, h3, _, h5⟩ => hs m hr ⟨h1, h2, h3, h5⟩]
            have hd := cycle_pre_none c rx w hw1 (.inr hs)
            rw [if_neg (by rw [hrun]; simp)] at hd
            refine next true left _ ⟨(congrArg Disc.st hd).trans hw1, hok', ?_⟩ hx (by rw [hfate, if_neg h0, if_pos rfl, has])
            rw [← hleft]
            exact congrArg BitVec.toNat (congrArg Disc.rem hd)
        | false =>
          have hd := (cycle_wait c rx w hw1.1 hw1.2).2
          rw [if_neg (by rw [hrun]; simp)] at hd
          refine next ((readMessage c rx w).1.any fun m => decide (ackFrom m 0)) left _ ?_ hx
            (by rw [hfate, if_neg h0, if_neg (by simp)])
          have hrem : (Core.process c rx w).2.tm.rem .main = w.tm.rem .main := by
            refine (congrArg Disc.rem hd).trans ?_
            split <;> rfl
          refine ⟨?_, hok', (congrArg BitVec.toNat hrem).trans hleft⟩
          rw [er]
          split
          · rename_i hk
            rw [if_pos hk] at hd
            exact congrArg Disc.st hd
          · rename_i hk
            rw [if_neg hk] at hd
            exact ⟨(congrArg Disc.st hd).trans hw1.1, (congrArg Disc.ist hd).trans hw1.2⟩
    · have hp : ∀ rx, op ≠ .process rx := fun rx e => hp ⟨rx, e⟩
      obtain ⟨hi, hsn⟩ := hops op (List.mem_cons_self ..)
      obtain ⟨h1, h2, h3, h4⟩ := op_still (c := c) hp hi hsn w
      rw [hleft] at h4
      have hw' : Waiting a (left - elapsed [op]) (stepOp c op w).2 := by
        refine ⟨?_, (congrFun h3 .main).trans hok, h4⟩
        split
        · rename_i ha
          rw [if_pos ha] at hw1
          exact h1.trans hw1
        · rename_i ha
          rw [if_neg ha] at hw1
          exact ⟨h1.trans hw1.1, h2.trans hw1.2⟩
      by_cases ht : ∃ ms, op = .tick ms
      · obtain ⟨ms, rfl⟩ := ht
        exact next a _ (.time ms) hw' rfl rfl
      · have he : elapsed [op] = 0 := by cases op <;> first | rfl | exact absurd ⟨_, rfl⟩ ht
        rw [he] at hw'
        have hx : seen c w (op :: ops) = .other :: seen c (stepOp c op w).2 ops := by
          cases op <;> first | rfl | exact absurd ⟨_, rfl⟩ ht | exact absurd rfl (hp _)
        exact next a _ .other hw' hx (by rw [hx]; rfl)

/-- C108: A node which begins to look for a nickname asks the segment master in its next cycle: it sends a probe of nickname 0, and waits for the
time of the configuration; if the transmission fails, it asks again in the next cycle. -/
theorem C108_asks (c : Ctx) (rx : Option Msg) (w : W) (h : w.v.st = .init) (hi : w.v.ist = .probeMaster) (hok : w.tm.ok .main = true) :
    (Core.process c rx w).2.out = w.out ++ [.tx (event c w.v.nick 7 2 [0]) (c.txOk w.out.length)] ∧
    if c.txOk w.out.length = true then Waiting false c.initTimeout.toNat (Core.process c rx w).2
    else (Core.process c rx w).2.v.st = .init ∧ (Core.process c rx w).2.v.ist = .probeMaster := by
  refine ⟨?_, ?_⟩
  · rw [process_init h]
    have hd := disc_pre c rx w
    have ho := pre_out c rx w
    have hn : (preProcess c rx w).2.v.nick = w.v.nick := pre_same c rx w .nick (by decide)
    have hp : (preProcess c rx w).2.v.ist = .probeMaster := by
      have := congrArg Disc.ist hd
      exact this.trans hi
    rw [← ho, ← hn]
    generalize (preProcess c rx w).2 = w1 at *
    unfold Core.stateInit
    rw [bind_run, get_run]
    dsimp only
    rw [hp]
    dsimp only
    rw [bind_run, tx_run _ _ _ _ (by decide)]
    dsimp only
    rw [whenM_run]
    split
    · rw [bind_run, setV_run, timerStart_run]
      dsimp only
      split <;> simp [frame, Core.MASTER]
    · simp [frame, Core.MASTER]
  · have hok' : (Core.process c rx w).2.tm.ok .main = true := (congrFun (process_ok c rx w) .main).trans hok
    rcases cycle_probeMaster c rx w h hi with ⟨ht, -, hd⟩ | ⟨ht, -, hd⟩
    · rw [if_neg (by rw [ht]; simp)]
      exact ⟨(congrArg Disc.st hd).trans h, (congrArg Disc.ist hd).trans hi⟩
    · rw [if_pos ht]
      rw [if_pos hok] at hd
      exact ⟨⟨(congrArg Disc.st hd).trans h, congrArg Disc.ist hd⟩, hok', congrArg BitVec.toNat (congrArg Disc.rem hd)⟩

/-! ### Examples, and the violation -/

/-- The node asks the segment master, which answers after a while and assigns nickname 0x2A. -/
def asks : List Op := [.process none, .process none]
def served : List Op :=
  [.tick 300, .process (some (Ex.msg 0 6 0 [0xFF, 0x11])), .process (some (Ex.msg 0 3 7 [])), .process (some (Ex.msg 0 3 0 [])), .tick 600,
   .process (some (Ex.msg 0 6 7 [0xFF, 0x12])), .process (some (Ex.msg 0 6 0 [0x05, 0x13])), .setAlarm 1, .process (some (Ex.msg 0 6 0 [0xFF, 0x2A])), .tick 5]

/-- The hypotheses of C108_fate_partial, and each of the fates. -/
example : Waiting false 1000 (node Ex.ctx allOk fresh asks) ∧
    fate false 1000 (seen Ex.ctx (node Ex.ctx allOk fresh asks) served) = .assigned 0x2A 1 ∧
    fate false 1000 (seen Ex.ctx (node Ex.ctx allOk fresh asks) (served.take 7)) = .waits true 100 ∧
    fate false 1000 (seen Ex.ctx (node Ex.ctx allOk fresh asks) (served.take 5 ++ [.tick 100, .process none])) = .alone 0 ∧
    (node Ex.ctx allOk fresh (asks ++ served)).v.nick = 0x2A := by
  refine ⟨⟨?_, rfl, ?_⟩, ?_⟩
  · decide +kernel
  · decide +kernel
  · decide +kernel

example : ∀ op ∈ served, (∀ ok, op ≠ .init ok) ∧ op ≠ .startNodeSegmentInit := by simp [served]

example : ∀ m, .cycle (some m) ∈ seen Ex.ctx (node Ex.ctx allOk fresh asks) served → complete m := by
  have e : seen Ex.ctx (node Ex.ctx allOk fresh asks) served =
      [.time 300, .cycle (some (Ex.msg 0 6 0 [0xFF, 0x11])), .cycle (some (Ex.msg 0 3 7 [])), .cycle (some (Ex.msg 0 3 0 [])), .time 600,
       .cycle (some (Ex.msg 0 6 7 [0xFF, 0x12])), .cycle (some (Ex.msg 0 6 0 [0x05, 0x13])), .other, .cycle (some (Ex.msg 0 6 0 [0xFF, 0x2A])), .time 5] := by
    rfl
  rw [e]
  simp only [List.mem_cons, Seen.cycle.injEq, Option.some.injEq, reduceCtorEq, List.not_mem_nil, or_false, false_or]
  rintro m (rfl | rfl | rfl | rfl | rfl | rfl) <;> (unfold complete; decide)

/-- The hypotheses of C108_asks. -/
example : (node Ex.ctx allOk fresh [.process none]).v.st = .init ∧ (node Ex.ctx allOk fresh [.process none]).v.ist = .probeMaster ∧
    (node Ex.ctx allOk fresh [.process none]).tm.ok .main = true ∧ Ex.ctx.txOk (node Ex.ctx allOk fresh [.process none]).out.length = true := by
  decide +kernel

/-- An event of the segment master with one byte only; the buffer it is in contains 0x33 behind it. -/
def short : Msg := ⟨3, 0, 6, 0, false, 1, bytes8 [0xFF, 0x33]⟩

/-- C108 does not hold for events which are too short: no nickname is assigned, and yet the node takes what happens to be behind the payload. -/
theorem C108_short_violated :
    ∃ (c : Ctx) (w : W) (ops : List Op), Waiting true 1000 w ∧ (∀ op ∈ ops, (∀ ok, op ≠ .init ok) ∧ op ≠ .startNodeSegmentInit) ∧
      fate true 1000 (seen c w ops) = .waits true 1000 ∧ (runOps c ops w).v.st = .active ∧ (runOps c ops w).v.nick = 0x33 := by
  refine ⟨Ex.ctx, node Ex.ctx allOk fresh (asks ++ [.process (some (Ex.msg 0 3 0 []))]), [.process (some short)], ⟨?_, rfl, ?_⟩, ?_, ?_, ?_, ?_⟩
  · decide +kernel
  · decide +kernel
  · simp
  · decide +kernel
  · decide +kernel
  · decide +kernel

end Vscp.MasterProps
