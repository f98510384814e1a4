/-
The firmware of the ARM example: nickname (C96), reset (C97), LED (C98).
-/
import Verif.Spec.ArmApp
import Verif.Props.Lamp
import Verif.Props.Main
import Verif.Props.Probe
import Verif.Props.Sleep
import Verif.Lemmas.Wear

namespace Vscp.ArmProps
open M Spec Spec.Arm Transport Safety Vscp.Arm Driver

/-- The firmware behind a history since power on. -/
abbrev fw (c : Ctx) (ps : Nat → U8) (l : List Move) : Fw := run c l (boot c ps)

/-- The events delivered are those of the CAN adapter: at most 8 data bytes. -/
def RxOk : Move → Prop
  | .tick _ => True
  | .step rx => ∀ m, rx = some m → m.size.toNat ≤ 8

theorem run_append (c : Ctx) (l l' : List Move) (f : Fw) : run c (l ++ l') f = run c l' (run c l f) := List.foldl_append ..

theorem good (sz : Nat) (tx : Nat → Bool) : GoodCfg (ctx sz tx) :=
  ⟨fun h => (by cases h), fun _ => (by decide : (10 : Nat) ≤ 255), fun h => (by cases h)⟩

/-! ### The framework in the firmware -/

/-- Calls the firmware makes. -/
def Called (op : Op) : Prop := (∃ rx, op = .process rx) ∨ op = .tick 250

/-- What a move calls. -/
theorem move_ops (c : Ctx) (f : Fw) (m : Move) (hm : RxOk m) : ∃ ops, (move c f m).w = runOps c ops f.w ∧ (∀ op ∈ ops, op.Ok) ∧
    ((f.pc = .button → f.btn.pc = .check → f.btn.pressed = true → f.btn.last = false → False) → ∀ op ∈ ops, Called op) := by
  cases m with
  | tick b => exact ⟨[], rfl, by simp, by simp⟩
  | step rx =>
    unfold move step
    cases hp : f.pc with
    | process =>
      refine ⟨[.process rx], rfl, fun op ho => ?_, fun _ op ho => ?_⟩
      · rw [List.mem_singleton.mp ho]
        cases rx with
        | none => trivial
        | some m => exact hm m rfl
      · rw [List.mem_singleton.mp ho]; exact .inl ⟨rx, rfl⟩
    | button =>
      dsimp only
      by_cases hr : (Button.step f.btn).2 = []
      · rw [if_pos hr]
        exact ⟨[], rfl, by simp, by simp⟩
      · rw [if_neg hr]
        refine ⟨[.startNodeSegmentInit], rfl, fun op ho => by rw [List.mem_singleton.mp ho]; trivial, fun h => ?_⟩
        exfalso
        unfold Button.step at hr
        split at hr
        · rename_i hc
          refine h rfl hc ?_ ?_
          · cases hq : f.btn.pressed <;> simp [hq] at hr ⊢
          · cases hq : f.btn.last <;> simp [hq] at hr ⊢
        · exact hr rfl
    | periodic =>
      dsimp only
      by_cases hr : (SwTimer.getStatus MainLoop.ID f.sw).1 = true
      · rw [if_pos hr]
        exact ⟨[.tick 250], rfl, fun op ho => by rw [List.mem_singleton.mp ho]; trivial, fun _ op ho => by rw [List.mem_singleton.mp ho]; exact .inr rfl⟩
      · rw [if_neg hr]
        exact ⟨[], rfl, by simp, by simp⟩

theorem runOps_append' (c : Ctx) (a b : List Op) (w : W) : runOps c (a ++ b) w = runOps c b (runOps c a w) := runOps_append ..

theorem run_ops (c : Ctx) : ∀ (l : List Move) (f : Fw), (∀ m ∈ l, RxOk m) → ∃ ops, (run c l f).w = runOps c ops f.w ∧ ∀ op ∈ ops, op.Ok
  | [], f, _ => ⟨[], rfl, by simp⟩
  | m :: l, f, h => by
    obtain ⟨a, h1, h2, -⟩ := move_ops c f m (h m (by simp))
    obtain ⟨b, h3, h4⟩ := run_ops c l (move c f m) (fun x hx => h x (by simp [hx]))
    refine ⟨a ++ b, ?_, fun op ho => (List.mem_append.mp ho).elim (h2 op) (h4 op)⟩
    rw [runOps_append, ← h1, ← h3]
    rfl

theorem fw_node (c : Ctx) (ps : Nat → U8) (l : List Move) (h : ∀ m ∈ l, RxOk m) :
    ∃ ops, (fw c ps l).w = node c allOk ps ops ∧ ∀ op ∈ ops, op.Ok := run_ops c l (boot c ps) h

/-! ### The button -/

theorem debounce : Button.DEBOUNCE.toNat = 100 := rfl

/-- The button behind a history: `k` milliseconds released. -/
structure Btn (f : Fw) (k : Nat) : Prop where
  cnt : f.btn.cnt.toNat = min k 100
  pressed : f.btn.pressed = decide (101 ≤ k)
  pc : f.btn.pc = .remember → f.pc = .button

theorem Btn.tick {f : Fw} {k : Nat} (h : Btn f k) (b : Bool) : Btn (isr b f) (if b then 0 else k + 1) := by
  obtain ⟨h1, h2, h3⟩ := h
  cases b with
  | true => exact ⟨rfl, rfl, h3⟩
  | false =>
    have e : (isr false f).btn = if Button.DEBOUNCE ≤ f.btn.cnt then { f.btn with pressed := true } else { f.btn with cnt := f.btn.cnt + 1 } := rfl
    by_cases hc : Button.DEBOUNCE ≤ f.btn.cnt
    · rw [if_pos hc] at e
      rw [BitVec.le_def, debounce] at hc
      refine ⟨?_, ?_, ?_⟩
      · rw [e]; show f.btn.cnt.toNat = min (k + 1) 100; omega
      · rw [e]; show true = decide (101 ≤ k + 1); symm; rw [decide_eq_true_eq]; omega
      · rw [e]; exact h3
    · rw [if_neg hc] at e
      rw [BitVec.le_def, debounce] at hc
      refine ⟨?_, ?_, ?_⟩
      · rw [e]
        show (f.btn.cnt + 1).toNat = min (k + 1) 100
        rw [BitVec.toNat_add, show (1 : U8).toNat = 1 from rfl]; omega
      · rw [e]
        show f.btn.pressed = decide (101 ≤ k + 1)
        rw [h2, decide_eq_decide]; omega
      · rw [e]; exact h3

theorem button_step (s : Button.State) : (Button.step s).1.cnt = s.cnt ∧ (Button.step s).1.pressed = s.pressed ∧
    (s.pc = .check → (Button.step s).1.pc = .remember ∧ (Button.step s).1.last = s.last) ∧
    (s.pc = .remember → (Button.step s).1.pc = .check ∧ (Button.step s).1.last = s.pressed) := by
  unfold Button.step
  cases s.pc <;> simp

theorem Btn.step {c : Ctx} {f : Fw} {k : Nat} (h : Btn f k) (rx : Option Msg) : Btn (step c rx f) k := by
  obtain ⟨h1, h2, h3⟩ := h
  unfold Arm.step
  cases hp : f.pc with
  | process => exact ⟨h1, h2, fun h => rfl⟩
  | periodic =>
    refine ⟨h1, h2, fun h => ?_⟩
    have := h3 h
    rw [hp] at this
    cases this
  | button =>
    obtain ⟨b1, b2, b3, b4⟩ := button_step f.btn
    refine ⟨by rw [← h1]; exact congrArg BitVec.toNat b1, b2.trans h2, fun h => ?_⟩
    dsimp only at h ⊢
    rw [if_neg (by rw [h]; decide)]

theorem Btn.start (c : Ctx) (ps : Nat → U8) : Btn (boot c ps) 0 := ⟨rfl, rfl, fun h => (by cases h)⟩

theorem released_append (l : List Move) (m : Move) : released (l ++ [m]) = (match m with
    | .tick true => 0
    | .tick false => released l + 1
    | .step _ => released l) := by
  unfold released
  rw [List.foldl_append]
  rfl

theorem btn_fw (c : Ctx) (ps : Nat → U8) (l : List Move) : Btn (fw c ps l) (released l) := by
  induction l using snoc_induction with
  | nil => exact .start c ps
  | snoc l m ih =>
    have e : fw c ps (l ++ [m]) = move c (fw c ps l) m := run_append c l [m] _
    rw [e, released_append]
    cases m with
    | tick b => have := ih.tick b; cases b <;> exact this
    | step rx => exact ih.step rx

theorem fw_snoc (c : Ctx) (ps : Nat → U8) (l : List Move) (m : Move) : fw c ps (l ++ [m]) = move c (fw c ps l) m := run_append c l [m] _

/-! ### Where the main loop is -/

/-- The place in the main loop behind `k` steps. -/
def At (f : Fw) (k : Nat) : Prop :=
  (k % 4 = 0 ∧ f.pc = .process ∧ f.btn.pc = .check) ∨ (k % 4 = 1 ∧ f.pc = .button ∧ f.btn.pc = .check) ∨
  (k % 4 = 2 ∧ f.pc = .button ∧ f.btn.pc = .remember) ∨ (k % 4 = 3 ∧ f.pc = .periodic ∧ f.btn.pc = .check)

theorem isr_pc (b : Bool) (f : Fw) : (isr b f).pc = f.pc ∧ (isr b f).btn.pc = f.btn.pc ∧ (isr b f).btn.last = f.btn.last ∧ (isr b f).w = f.w := by
  refine ⟨rfl, ?_, ?_, rfl⟩ <;>
  · unfold isr Button.isrArm
    dsimp only
    split
    · rfl
    · split <;> rfl

theorem At.step {c : Ctx} {f : Fw} {k : Nat} (h : At f k) (rx : Option Msg) : At (step c rx f) (k + 1) := by
  unfold Arm.step
  rcases h with ⟨h0, h1, h2⟩ | ⟨h0, h1, h2⟩ | ⟨h0, h1, h2⟩ | ⟨h0, h1, h2⟩
  · simp only [h1]
    exact .inr (.inl ⟨by omega, rfl, h2⟩)
  · simp only [h1]
    obtain ⟨-, -, b3, -⟩ := button_step f.btn
    refine .inr (.inr (.inl ⟨by omega, if_neg (by rw [(b3 h2).1]; decide), (b3 h2).1⟩))
  · simp only [h1]
    obtain ⟨-, -, -, b4⟩ := button_step f.btn
    refine .inr (.inr (.inr ⟨by omega, if_pos (b4 h2).1, (b4 h2).1⟩))
  · simp only [h1]
    exact .inl ⟨by omega, rfl, h2⟩

theorem loopSteps_append (l l' : List Move) : loopSteps (l ++ l') = loopSteps l + loopSteps l' := List.countP_append ..
theorem millis_append (l l' : List Move) : millis (l ++ l') = millis l + millis l' := List.countP_append ..

theorem at_fw (c : Ctx) (ps : Nat → U8) (l : List Move) : At (fw c ps l) (loopSteps l) := by
  induction l using snoc_induction with
  | nil => exact .inl ⟨rfl, rfl, rfl⟩
  | snoc l m ih =>
    rw [fw_snoc, loopSteps_append]
    cases m with
    | tick b =>
      obtain ⟨h1, h2, -, -⟩ := isr_pc b (fw c ps l)
      show At (isr b (fw c ps l)) _
      unfold At at ih ⊢
      rw [h1, h2]
      exact ih
    | step rx => exact ih.step rx

theorem untouched_append {l l' : List Move} : untouched (l ++ l') ↔ untouched l ∧ untouched l' := by
  unfold untouched
  rw [List.mem_append, not_or]

theorem untouched_released {l : List Move} (h : untouched l) : released l = millis l := by
  induction l using snoc_induction with
  | nil => rfl
  | snoc l m ih =>
    obtain ⟨h1, h2⟩ := untouched_append.mp h
    rw [released_append, millis_append, ih h1]
    cases m with
    | tick b => cases b with
      | true => exact absurd (List.mem_singleton.mpr rfl) h2
      | false => rfl
    | step rx => rfl

/-- The remembered state of the button, as long as nobody touches it. -/
theorem last_fw (c : Ctx) (ps : Nat → U8) {l : List Move} (h : untouched l) (hl : (fw c ps l).btn.last = true) : 101 ≤ millis l := by
  induction l using snoc_induction with
  | nil => cases hl
  | snoc l m ih =>
    obtain ⟨h1, h2⟩ := untouched_append.mp h
    rw [fw_snoc] at hl
    rw [millis_append]
    cases m with
    | tick b =>
      rw [show move c (fw c ps l) (.tick b) = isr b (fw c ps l) from rfl, (isr_pc b (fw c ps l)).2.2.1] at hl
      have := ih h1 hl
      omega
    | step rx =>
      have key : (fw c ps l).btn.last = true ∨ (fw c ps l).btn.pressed = true := by
        revert hl
        unfold move Arm.step
        cases (fw c ps l).pc with
        | process => exact .inl
        | periodic => exact .inl
        | button =>
          obtain ⟨-, -, b3, b4⟩ := button_step (fw c ps l).btn
          intro hl
          dsimp only at hl
          cases hb : (fw c ps l).btn.pc with
          | check => rw [(b3 hb).2] at hl; exact .inl hl
          | remember => rw [(b4 hb).2] at hl; exact .inr hl
      rcases key with hk | hk
      · have := ih h1 hk; omega
      · have hb := (btn_fw c ps l).pressed
        rw [hk, untouched_released h1] at hb
        have := of_decide_eq_true hb.symm
        omega

/-! ### The firmware begins the discovery -/

theorem start_init (c : Ctx) (w : W) : (stepOp c .startNodeSegmentInit w).2.v.st = .init := by
  show (Core.startNodeSegmentInit c w).2.v.st = .init
  unfold Core.startNodeSegmentInit
  rw [bind_run, get_run, whenM_run]
  split
  · rename_i h
    exact (changeInit_run c true w h).1
  · rename_i h
    exact Classical.not_not.mp h

/-- Steps of the main loop until the button is checked. -/
def dist (f : Fw) : Nat := match f.pc with
  | .button => 1
  | .process => 2
  | .periodic => 3

theorem isr_armed {f : Fw} (h : f.btn.pressed = true) (b : Bool) (hb : b ≠ true) : (isr b f).btn.pressed = true := by
  have : b = false := by cases b <;> simp_all
  subst this
  unfold isr Button.isrArm
  dsimp only
  rw [if_neg (by decide)]
  split
  · rfl
  · exact h

/-- The button seems to be pressed, and this was not seen yet: the discovery begins. -/
theorem go (c : Ctx) : ∀ (b : List Move) (f : Fw), untouched b → f.btn.pressed = true → f.btn.last = false → f.btn.pc = .check →
    dist f ≤ loopSteps b → ∃ b1 b2, b = b1 ++ b2 ∧ (run c b1 f).w.v.st = .init
  | [], f, _, _, _, _, hd => by
    unfold dist loopSteps at hd
    cases hp : f.pc <;> rw [hp] at hd <;> simp at hd
  | .tick p :: b, f, hu, h1, h2, h3, hd => by
    have hp : p ≠ true := fun e => hu (by rw [e]; simp)
    have hu' : untouched b := fun h => hu (List.mem_cons_of_mem _ h)
    obtain ⟨e1, e2, e3, -⟩ := isr_pc p f
    have e4 : loopSteps (.tick p :: b) = loopSteps b := by unfold loopSteps; rw [List.countP_cons]; rfl
    obtain ⟨b1, b2, hb, hs⟩ := go c b (isr p f) hu' (isr_armed h1 p hp) (e3.trans h2) (e2.trans h3) (by rw [← e4]; exact hd)
    exact ⟨.tick p :: b1, b2, by rw [hb]; rfl, hs⟩
  | .step rx :: b, f, hu, h1, h2, h3, hd => by
    have hu' : untouched b := fun h => hu (List.mem_cons_of_mem _ h)
    have e4 : loopSteps (.step rx :: b) = loopSteps b + 1 := by unfold loopSteps; rw [List.countP_cons]; rfl
    rw [e4] at hd
    cases hp : f.pc with
    | button =>
      refine ⟨[.step rx], b, rfl, ?_⟩
      show (Arm.step c rx f).w.v.st = .init
      unfold Arm.step
      simp only [hp]
      rw [if_neg]
      · exact start_init c f.w
      · unfold Button.step
        rw [h3]
        simp [h1, h2]
    | process =>
      have hd' : dist (Arm.step c rx f) ≤ loopSteps b := by
        unfold Arm.step; unfold dist at hd ⊢; rw [hp] at hd; simp only [hp]; dsimp only at hd; omega
      have : (Arm.step c rx f).btn = f.btn := by unfold Arm.step; simp only [hp]
      obtain ⟨b1, b2, hb, hs⟩ := go c b (Arm.step c rx f) hu' (by rw [this]; exact h1) (by rw [this]; exact h2) (by rw [this]; exact h3) hd'
      exact ⟨.step rx :: b1, b2, by rw [hb]; rfl, hs⟩
    | periodic =>
      have hd' : dist (Arm.step c rx f) ≤ loopSteps b := by
        unfold Arm.step; unfold dist at hd ⊢; rw [hp] at hd; simp only [hp]; dsimp only at hd; omega
      have : (Arm.step c rx f).btn = f.btn := by unfold Arm.step; simp only [hp]
      obtain ⟨b1, b2, hb, hs⟩ := go c b (Arm.step c rx f) hu' (by rw [this]; exact h1) (by rw [this]; exact h2) (by rw [this]; exact h3) hd'
      exact ⟨.step rx :: b1, b2, by rw [hb]; rfl, hs⟩

/-- Where the discovery begins behind power on. -/
theorem begun (c : Ctx) (ps : Nat → U8) (a b : List Move) (hu : untouched (a ++ .tick false :: b)) (ha : millis a = 100) (hs : loopSteps a % 4 ≠ 2)
    (hb : 3 ≤ loopSteps b) : ∃ b1 b2, b = b1 ++ b2 ∧ (fw c ps (a ++ .tick false :: b1)).w.v.st = .init := by
  obtain ⟨u1, u2⟩ := untouched_append.mp hu
  have u3 : untouched b := fun h => u2 (List.mem_cons_of_mem _ h)
  have u4 : untouched (a ++ [.tick false]) := untouched_append.mpr ⟨u1, by simp [untouched]⟩
  have hbt := btn_fw c ps (a ++ [.tick false])
  have hm : millis (a ++ [.tick false]) = 101 := by rw [millis_append, ha]; rfl
  have hp : (fw c ps (a ++ [.tick false])).btn.pressed = true := by
    rw [hbt.pressed, untouched_released u4, hm]; rfl
  have hl : (fw c ps (a ++ [.tick false])).btn.last = false := by
    rw [fw_snoc]
    show (isr false (fw c ps a)).btn.last = false
    rw [(isr_pc false (fw c ps a)).2.2.1]
    cases h : (fw c ps a).btn.last with
    | false => rfl
    | true => have := last_fw c ps u1 h; omega
  have hpc : (fw c ps (a ++ [.tick false])).btn.pc = .check := by
    rw [fw_snoc]
    show (isr false (fw c ps a)).btn.pc = .check
    rw [(isr_pc false (fw c ps a)).2.1]
    rcases at_fw c ps a with ⟨-, -, h⟩ | ⟨-, -, h⟩ | ⟨h0, -, -⟩ | ⟨-, -, h⟩
    · exact h
    · exact h
    · exact absurd h0 hs
    · exact h
  have hd : dist (fw c ps (a ++ [.tick false])) ≤ loopSteps b := by
    unfold dist; split <;> omega
  obtain ⟨b1, b2, e, h⟩ := go c b _ u3 hp hl hpc hd
  refine ⟨b1, b2, e, ?_⟩
  rw [show a ++ .tick false :: b1 = (a ++ [.tick false]) ++ b1 by simp]
  show (run c ((a ++ [.tick false]) ++ b1) (boot c ps)).w.v.st = .init
  rw [run_append]
  exact h

/-- C96 does not hold: nobody touches the button, nothing is received, and nevertheless the node gives up its nickname behind every power on, with every content of the persistent
memory; at the latest three steps of the main loop behind the timer interrupt 101.  (Unless this interrupt comes between the two read accesses of the button, see C77.) -/
theorem C96_lost_violated (sz : Nat) (tx : Nat → Bool) (ps : Nat → U8) (a b : List Move) (hr : ∀ m ∈ a ++ .tick false :: b, RxOk m)
    (hu : untouched (a ++ .tick false :: b)) (ha : millis a = 100) (hs : loopSteps a % 4 ≠ 2) (hb : 3 ≤ loopSteps b) :
    ∃ b1 b2, b = b1 ++ b2 ∧ let w := (fw (ctx sz tx) ps (a ++ .tick false :: b1)).w
      w.v.st = .init ∧ w.v.nick = 0xFF ∧ w.ps (Ps.addrNickname (ctx sz tx).toCfg) = 0xFF := by
  obtain ⟨b1, b2, e, h⟩ := begun (ctx sz tx) ps a b hu ha hs hb
  refine ⟨b1, b2, e, h, ?_⟩
  obtain ⟨ops, h1, h2⟩ := fw_node (ctx sz tx) ps (a ++ .tick false :: b1) (fun m hm => hr m (by
    rw [e]
    rcases List.mem_append.mp hm with hm | hm
    · exact List.mem_append_left _ hm
    · refine List.mem_append_right _ ?_
      rcases List.mem_cons.mp hm with hm | hm
      · rw [hm]; simp
      · simp [hm]))
  rw [h1] at h ⊢
  exact Probe.C85_no_nickname (good sz tx) allOk ps ops h2 (.inl h)

/-! ### A node which does not hear the others -/

/-- A property of the node is kept by a move. -/
theorem move_inv {c : Ctx} {P : W → Prop} (f : Fw) (m : Move) (h : P f.w) (hp : ∀ rx, m = .step rx → P (stepOp c (.process rx) f.w).2)
    (ht : P (stepOp c (.tick 250) f.w).2)
    (hs : f.pc = .button → f.btn.pc = .check → f.btn.pressed = true → f.btn.last = false → P (stepOp c .startNodeSegmentInit f.w).2) :
    P (move c f m).w := by
  cases m with
  | tick b => exact h
  | step rx =>
    unfold move step
    cases hq : f.pc with
    | process => exact hp rx rfl
    | button =>
      dsimp only
      split
      · exact h
      · rename_i hr
        unfold Button.step at hr
        split at hr
        · rename_i hc
          refine hs hq hc ?_ ?_
          · cases hq : f.btn.pressed <;> simp [hq] at hr ⊢
          · cases hq : f.btn.last <;> simp [hq] at hr ⊢
        · exact absurd rfl hr
    | periodic =>
      dsimp only
      split
      · exact ht
      · exact h

theorem rx_plain {c : Ctx} (hl : c.loopback = false) (rx : Option Msg) (w : W) : (readMessage c rx w).1 = rx := by
  unfold readMessage
  rw [hl]
  rfl

theorem deaf_ack {rx : Option Msg} (h : deafTo rx) (q : U8) : Core.isProbeAckOf rx q = false := by
  cases hb : Core.isProbeAckOf rx q with
  | false => rfl
  | true =>
    obtain ⟨m, e, ha⟩ := (isProbeAckOf_iff rx q).mp hb
    have := (h m e).2
    unfold ackFrom at ha
    rw [this] at ha
    exact absurd ha.2.1 (by decide)

/-- An active node which hears nothing keeps its nickname. -/
theorem deaf_active {c : Ctx} (hl : c.loopback = false) {rx : Option Msg} (hd : deafTo rx) {w : W} (h : w.v.st = .active) :
    (Core.process c rx w).2.v.st = .active ∧ (Core.process c rx w).2.v.nick = w.v.nick ∧ (Core.process c rx w).2.ps = w.ps := by
  have key : ∃ w1, (∀ k : Comp, [Comp.epoch, .tm .epoch, .lb, .rx, .lg].contains k = false → k.same w w1) ∧ Tail c w1 (Core.process c rx w).2 := by
    by_cases ht : ∃ m, m.cls = 0 ∧ Takes c rx w m
    · obtain ⟨m, hm, ht⟩ := ht
      obtain ⟨w1, t1, -, -, hs, htl⟩ := takes_cycle ht hm
      have hr := ht.2.1
      rw [rx_plain hl] at hr
      have ht0 := (hd m hr).2
      rw [handlerOther (by rw [ht0]; decide)] at htl
      exact ⟨w1, hs, htl⟩
    · obtain ⟨w1, t1, -, -, hs, htl⟩ := other_cycle (c := c) (rx := rx) h (fun m hm htk => ht ⟨m, hm, htk⟩)
      exact ⟨w1, hs, htl⟩
  obtain ⟨w1, hs, htl⟩ := key
  refine ⟨?_, ?_, ?_⟩
  · have h1 : w1.v.st = w.v.st := hs .st (by decide)
    have h2 : (Core.process c rx w).2.v.st = w1.v.st := htl.steps.same .st (by decide)
    rw [h2, h1, h]
  · have h1 : w1.v.nick = w.v.nick := hs .nick (by decide)
    have h2 : (Core.process c rx w).2.v.nick = w1.v.nick := htl.steps.same .nick (by decide)
    rw [h2, h1]
  · have h1 : w1.ps = w.ps := hs .ps (by decide)
    have h2 : (Core.process c rx w).2.ps = w1.ps := htl.steps.same .ps (by decide)
    rw [h2, h1]

/-- The node looks for a nickname and has not gone beyond 1, or has the nickname 1. -/
def First (w : W) : Prop :=
  (w.v.st = .init ∧ (w.v.ist = .probeMaster ∨ w.v.ist = .probeMasterWait ∨ w.v.probe = 1)) ∨ (w.v.st = .active ∧ w.v.nick = 1)

theorem First.process {c : Ctx} (hl : c.loopback = false) (hp : c.startProbe = 1) {rx : Option Msg} (hd : deafTo rx) {w : W} (h : First w) :
    First (Core.process c rx w).2 := by
  rcases h with ⟨h, hi⟩ | ⟨h, hn⟩
  · cases hist : w.v.ist with
    | probeMaster =>
      rcases cycle_probeMaster c rx w h hist with ⟨-, -, e⟩ | ⟨-, -, e⟩
      · exact .inl ⟨(congrArg Disc.st e).trans h, .inl ((congrArg Disc.ist e).trans hist)⟩
      · exact .inl ⟨(congrArg Disc.st e).trans h, .inr (.inl (congrArg Disc.ist e))⟩
    | probeMasterWait =>
      left
      obtain ⟨-, hc⟩ := cycle_probeMasterWait c rx w h hist
      rcases hc with ⟨-, e⟩ | ⟨hrun, -⟩
      · exact ⟨(congrArg Disc.st e).trans h, .inr (.inr ((congrArg Disc.probe e).trans hp))⟩
      · have hdp := disc_pre c rx w
        rw [process_init h, rx_plain hl]
        have e : (Core.stateInit c rx (preProcess c rx w).2).2 = (preProcess c rx w).2 := by
          have hist' : (preProcess c rx w).2.v.ist = .probeMasterWait := (congrArg Disc.ist hdp).trans hist
          rw [← hdp] at hrun
          generalize (preProcess c rx w).2 = w1 at *
          have hr : (w1.tm.ok .main && w1.tm.rem .main != 0) = true := hrun
          unfold Core.stateInit
          rw [bind_run, get_run]
          dsimp only
          rw [hist']
          dsimp only
          rw [bind_run, timerRunning_run]
          dsimp only
          rw [hr, if_neg (by simp), whenM_run, deaf_ack hd, if_neg (by simp)]
        rw [e]
        exact ⟨(congrArg Disc.st hdp).trans h, .inr (.inl ((congrArg Disc.ist hdp).trans hist))⟩
    | probe =>
      have hq : w.v.probe = 1 := by
        rcases hi with hi | hi | hi
        · rw [hist] at hi; cases hi
        · rw [hist] at hi; cases hi
        · exact hi
      rcases cycle_probe c rx w h hist with ⟨-, -, e⟩ | ⟨-, -, ⟨he, -⟩ | ⟨-, e⟩⟩
      · exact .inl ⟨(congrArg Disc.st e).trans h, .inr (.inr ((congrArg Disc.probe e).trans hq))⟩
      · rw [hq] at he; exact absurd he (by decide)
      · exact .inl ⟨(congrArg Disc.st e).trans h, .inr (.inr ((congrArg Disc.probe e).trans hq))⟩
    | probeWait =>
      have hq : w.v.probe = 1 := by
        rcases hi with hi | hi | hi
        · rw [hist] at hi; cases hi
        · rw [hist] at hi; cases hi
        · exact hi
      rcases cycle_probeWait c rx w h hist with ⟨-, h1, h2, -⟩ | ⟨-, -, ⟨⟨m, hm, ha⟩, -⟩ | ⟨-, e⟩⟩
      · exact .inr ⟨h1, h2.trans hq⟩
      · rw [rx_plain hl] at hm
        have := deaf_ack hd w.v.probe
        rw [(isProbeAckOf_iff rx w.v.probe).mpr ⟨m, hm, ha⟩] at this
        cases this
      · exact .inl ⟨(congrArg Disc.st e).trans h, .inr (.inr ((congrArg Disc.probe e).trans hq))⟩
  · obtain ⟨h1, h2, -⟩ := deaf_active hl hd h
    exact .inr ⟨h1, h2.trans hn⟩

theorem First.tick {c : Ctx} {w : W} (h : First w) : First (stepOp c (.tick 250) w).2 := by
  have h1 : (stepOp c (.tick 250) w).2.v.st = w.v.st := op_same c (.tick 250) (fun _ h => by cases h) w .st rfl
  have h2 := op_same c (.tick 250) (fun _ h => by cases h) w .init rfl
  have h3 : (stepOp c (.tick 250) w).2.v.nick = w.v.nick := op_same c (.tick 250) (fun _ h => by cases h) w .nick rfl
  unfold First
  rw [h1, h2.1, h2.2, h3]
  exact h

theorem First.start {c : Ctx} {w : W} (h : First w) : First (stepOp c .startNodeSegmentInit w).2 := by
  show First (Core.startNodeSegmentInit c w).2
  unfold Core.startNodeSegmentInit
  rw [bind_run, get_run, whenM_run]
  split
  · rename_i hn
    obtain ⟨h1, h2, -⟩ := changeInit_run c true w hn
    exact .inl ⟨h1, .inl h2⟩
  · exact h

theorem First.run {c : Ctx} (hl : c.loopback = false) (hp : c.startProbe = 1) : ∀ (l : List Move) (f : Fw), (∀ rx, .step rx ∈ l → deafTo rx) → First f.w →
    First (run c l f).w
  | [], f, _, h => h
  | m :: l, f, hd, h => First.run hl hp l (move c f m) (fun rx hx => hd rx (List.mem_cons_of_mem _ hx))
      (move_inv f m h (fun rx e => h.process hl hp (hd rx (by rw [e]; simp))) h.tick fun _ _ _ _ => h.start)

/-- Before the discovery begins. -/
def Early (w : W) : Prop := First w ∨ w.v.st = .startup ∨ w.v.st = .active

theorem Early.process {c : Ctx} (hl : c.loopback = false) (hp : c.startProbe = 1) (hsi : c.silent = false) {rx : Option Msg} (hd : deafTo rx) {w : W} (h : Early w) :
    Early (Core.process c rx w).2 := by
  rcases h with h | h | h
  · exact .inl (h.process hl hp hd)
  · rw [process_startup h]
    have hst : (preProcess c rx w).2.v.st = .startup := (pre_same c rx w .st (by decide)).trans h
    generalize (preProcess c rx w).2 = w1 at *
    unfold Core.stateStartup
    rw [bind_run, get_run]
    dsimp only
    rw [ite_run]
    split
    · rw [ite_run, if_neg (by rw [hsi]; decide), bind_run]
      have e : (Core.getStartUpControl c w1).2 = w1 := rfl
      rw [e, whenM_run]
      split
      · obtain ⟨h1, h2, -⟩ := changeInit_run c true w1 (by rw [hst]; decide)
        exact .inl (.inl ⟨h1, .inl h2⟩)
      · exact .inr (.inl hst)
    · exact .inr (.inr (Probe.active_st c w1))
  · exact .inr (.inr (deaf_active hl hd h).1)

theorem Early.tick {c : Ctx} {w : W} (h : Early w) : Early (stepOp c (.tick 250) w).2 := by
  rcases h with h | h
  · exact .inl h.tick
  · have h1 : (stepOp c (.tick 250) w).2.v.st = w.v.st := op_same c (.tick 250) (fun _ h => by cases h) w .st rfl
    unfold Early
    rw [h1]
    exact .inr h

theorem Early.start {c : Ctx} {w : W} (h : Early w) : Early (stepOp c .startNodeSegmentInit w).2 := by
  rcases h with h | h
  · exact .inl h.start
  · have hn : w.v.st ≠ .init := by rcases h with h | h <;> rw [h] <;> decide
    show Early (Core.startNodeSegmentInit c w).2
    unfold Core.startNodeSegmentInit
    rw [bind_run, get_run, whenM_run, if_pos hn]
    obtain ⟨h1, h2, -⟩ := changeInit_run c true w hn
    exact .inl (.inl ⟨h1, .inl h2⟩)

theorem Early.run {c : Ctx} (hl : c.loopback = false) (hp : c.startProbe = 1) (hsi : c.silent = false) : ∀ (l : List Move) (f : Fw),
    (∀ rx, .step rx ∈ l → deafTo rx) → Early f.w → Early (run c l f).w
  | [], f, _, h => h
  | m :: l, f, hd, h => Early.run hl hp hsi l (move c f m) (fun rx hx => hd rx (List.mem_cons_of_mem _ hx))
      (move_inv f m h (fun rx e => h.process hl hp hsi (hd rx (by rw [e]; simp))) h.tick fun _ _ _ _ => h.start)

theorem Early.boot (sz : Nat) (tx : Nat → Bool) (ps : Nat → U8) : Early (boot (ctx sz tx) ps).w := by
  obtain ⟨w1, hi, e⟩ := init_run (ctx sz tx) (fun _ => true) (powerUp ps)
  obtain ⟨r, hv⟩ := hi.v
  have hst : w1.v.st = .startup := by rw [hv]
  show Early (Core.init (ctx sz tx) (fun _ => true) (powerUp ps)).2
  rw [e, whenM_run, if_neg (by simp [timersGood]), whenM_run]
  split
  · rw [restore_run]
    exact .inr (.inl hst)
  · exact .inr (.inl hst)

/-- C96 does not hold: all nodes of this kind take the same nickname.  Whatever nickname is stored, if nobody touches the button, and the CAN adapter delivers what it can
deliver (see C92), a node which is active behind the wrong start of the discovery has the nickname 1, in use and in its memory. -/
theorem C96_same_violated (sz : Nat) (tx : Nat → Bool) (ps : Nat → U8) (a b : List Move) (hr : ∀ m ∈ a ++ .tick false :: b, RxOk m)
    (hd : ∀ rx, .step rx ∈ a ++ .tick false :: b → deafTo rx)
    (hu : untouched (a ++ .tick false :: b)) (ha : millis a = 100) (hs : loopSteps a % 4 ≠ 2) (hb : 3 ≤ loopSteps b) :
    let w := (fw (ctx sz tx) ps (a ++ .tick false :: b)).w
    looking w ∨ (w.v.st = .active ∧ w.v.nick = 1 ∧ w.ps (Ps.addrNickname (ctx sz tx).toCfg) = 1) := by
  obtain ⟨b1, b2, e, h⟩ := begun (ctx sz tx) ps a b hu ha hs hb
  have he : a ++ .tick false :: b = (a ++ .tick false :: b1) ++ b2 := by rw [e]; simp
  have h1 : First (fw (ctx sz tx) ps (a ++ .tick false :: b1)).w := by
    have := Early.run (c := ctx sz tx) rfl rfl rfl (a ++ .tick false :: b1) (Arm.boot (ctx sz tx) ps) (fun rx hx => hd rx (by rw [he]; exact List.mem_append_left _ hx))
      (.boot sz tx ps)
    rcases this with h' | h' | h'
    · exact h'
    · rw [h] at h'; cases h'
    · rw [h] at h'; cases h'
  have h2 : First (fw (ctx sz tx) ps (a ++ .tick false :: b)).w := by
    rw [he]
    show First (run (ctx sz tx) _ _).w
    rw [run_append]
    exact First.run rfl rfl b2 _ (fun rx hx => hd rx (by rw [he]; exact List.mem_append_right _ hx)) h1
  intro w
  rcases h2 with ⟨h2, -⟩ | ⟨h2, h3⟩
  · exact .inl (.inl h2)
  · refine .inr ⟨h2, h3, ?_⟩
    obtain ⟨ops, h4, h5⟩ := fw_node (ctx sz tx) ps (a ++ .tick false :: b) hr
    have h3 : w.v.nick = 1 := h3
    have h4 : w = node (ctx sz tx) allOk ps ops := h4
    rw [h4] at h3 ⊢
    rw [← C34_nickname_stored (good sz tx) allOk ps ops h5]
    exact h3

/-! ### The button at rest -/

/-- Steps of the main loop until the state of the button is remembered. -/
def dist2 (f : Fw) : Nat := match f.pc with
  | .button => if f.btn.pc = .remember then 1 else 2
  | .process => 3
  | .periodic => 4

/-- The released button was seen. -/
def Rest (f : Fw) : Prop := f.btn.pressed = true ∧ f.btn.last = true

theorem Rest.move {c : Ctx} {f : Fw} (h : Rest f) (m : Move) (hm : m ≠ .tick true) : Rest (move c f m) := by
  obtain ⟨h1, h2⟩ := h
  cases m with
  | tick b => exact ⟨isr_armed h1 b (fun e => hm (by rw [e])), (isr_pc b f).2.2.1.trans h2⟩
  | step rx =>
    unfold Arm.move Arm.step
    cases f.pc with
    | process => exact ⟨h1, h2⟩
    | periodic => exact ⟨h1, h2⟩
    | button =>
      obtain ⟨-, b2, b3, b4⟩ := button_step f.btn
      refine ⟨b2.trans h1, ?_⟩
      show (Button.step f.btn).1.last = true
      cases hb : f.btn.pc with
      | check => rw [(b3 hb).2]; exact h2
      | remember => rw [(b4 hb).2]; exact h1

theorem Rest.run {c : Ctx} : ∀ (l : List Move) (f : Fw), untouched l → Rest f → Rest (run c l f)
  | [], _, _, h => h
  | m :: l, f, hu, h => Rest.run l (Arm.move c f m) (fun hm => hu (List.mem_cons_of_mem _ hm)) (h.move m fun e => hu (by rw [e]; simp))

theorem settle {c : Ctx} : ∀ (b : List Move) (f : Fw), untouched b → f.btn.pressed = true → (f.btn.pc = .remember → f.pc = .button) →
    dist2 f ≤ loopSteps b → Rest (run c b f)
  | [], f, _, _, _, hd => by
    unfold dist2 loopSteps at hd
    cases hp : f.pc <;> rw [hp] at hd <;> simp at hd
    split at hd <;> simp at hd
  | .tick p :: b, f, hu, h1, h3, hd => by
    have hp : p ≠ true := fun e => hu (by rw [e]; simp)
    obtain ⟨e1, e2, -, -⟩ := isr_pc p f
    have e4 : loopSteps (.tick p :: b) = loopSteps b := by unfold loopSteps; rw [List.countP_cons]; rfl
    refine settle b (isr p f) (fun h => hu (List.mem_cons_of_mem _ h)) (isr_armed h1 p hp) ?_ ?_
    · rw [e1, e2]; exact h3
    · rw [← e4]; unfold dist2; rw [e1, e2]; exact hd
  | .step rx :: b, f, hu, h1, h3, hd => by
    have hu' : untouched b := fun h => hu (List.mem_cons_of_mem _ h)
    have e4 : loopSteps (.step rx :: b) = loopSteps b + 1 := by unfold loopSteps; rw [List.countP_cons]; rfl
    rw [e4] at hd
    show Rest (Arm.run c b (Arm.step c rx f))
    cases hp : f.pc with
    | process =>
      have e : (Arm.step c rx f).btn = f.btn ∧ (Arm.step c rx f).pc = .button := by unfold Arm.step; simp only [hp, and_self]
      have hpc : f.btn.pc ≠ .remember := fun h => by rw [h3 h] at hp; cases hp
      refine settle b _ hu' (by rw [e.1]; exact h1) (fun _ => e.2) ?_
      unfold dist2 at hd ⊢
      rw [hp] at hd
      rw [e.2, e.1]
      dsimp only at hd ⊢
      rw [if_neg hpc]
      omega
    | periodic =>
      have e : (Arm.step c rx f).btn = f.btn ∧ (Arm.step c rx f).pc = .process := by unfold Arm.step; simp only [hp, and_self]
      have hpc : f.btn.pc ≠ .remember := fun h => by rw [h3 h] at hp; cases hp
      refine settle b _ hu' (by rw [e.1]; exact h1) (fun h => absurd (e.1 ▸ h) hpc) ?_
      unfold dist2 at hd ⊢
      rw [hp] at hd
      rw [e.2]
      dsimp only at hd ⊢
      omega
    | button =>
      obtain ⟨-, b2, b3, b4⟩ := button_step f.btn
      have e : (Arm.step c rx f).btn = (Button.step f.btn).1 ∧ (Arm.step c rx f).pc = if (Button.step f.btn).1.pc = .check then .periodic else .button := by
        unfold Arm.step; simp only [hp, and_self]
      cases hb : f.btn.pc with
      | check =>
        have e2 : (Arm.step c rx f).pc = .button := by rw [e.2, (b3 hb).1]; rfl
        refine settle b _ hu' (by rw [e.1, b2]; exact h1) (fun _ => e2) ?_
        unfold dist2 at hd ⊢
        rw [hp, hb] at hd
        rw [e2, e.1, (b3 hb).1]
        simp only [reduceCtorEq, if_false, if_true] at hd ⊢
        omega
      | remember => exact Rest.run b _ hu' ⟨by rw [e.1, b2]; exact h1, by rw [e.1, (b4 hb).2]; exact h1⟩

/-- The button is released for more than 100 ms, and the main loop has run since. -/
theorem rest_fw (c : Ctx) (ps : Nat → U8) (a b : List Move) (ha : 101 ≤ released a) (hu : untouched b) (hb : 4 ≤ loopSteps b) : Rest (fw c ps (a ++ b)) := by
  have h := btn_fw c ps a
  show Rest (run c (a ++ b) _)
  rw [run_append]
  refine settle b _ hu ?_ h.pc ?_
  · have := h.pressed
    rw [decide_eq_true ha] at this
    exact this
  · unfold dist2
    split
    · split <;> omega
    · omega
    · omega

/-- As long as the button is at rest, the firmware calls only the framework and the timer. -/
theorem rest_inv {c : Ctx} {P : W → Prop} : ∀ (l : List Move) (f : Fw), untouched l → Rest f → P f.w →
    (∀ rx w, .step rx ∈ l → P w → P (stepOp c (.process rx) w).2) → (∀ w, P w → P (stepOp c (.tick 250) w).2) → P (run c l f).w
  | [], _, _, _, h, _, _ => h
  | m :: l, f, hu, hr, h, hp, ht => by
    refine rest_inv l (move c f m) (fun hm => hu (List.mem_cons_of_mem _ hm)) (hr.move m fun e => hu (by rw [e]; simp)) ?_
      (fun rx w hx => hp rx w (List.mem_cons_of_mem _ hx)) ht
    refine move_inv f m h (fun rx e => hp rx _ (by rw [e]; simp) h) (ht _ h) fun _ _ _ hl => ?_
    rw [hr.2] at hl
    cases hl

/-- C96 (part): once the button is released for more than 100 ms and the main loop has run, an active node which receives what the CAN adapter can deliver stays active and keeps its
nickname, until somebody presses the button. -/
theorem C96_kept_partial (sz : Nat) (tx : Nat → Bool) (ps : Nat → U8) (a b l : List Move) (ha : 101 ≤ released a) (hub : untouched b) (hb : 4 ≤ loopSteps b)
    (hul : untouched l) (hd : ∀ rx, .step rx ∈ l → deafTo rx) (hst : (fw (ctx sz tx) ps (a ++ b)).w.v.st = .active) :
    let w := (fw (ctx sz tx) ps (a ++ b)).w
    let w' := (fw (ctx sz tx) ps (a ++ b ++ l)).w
    w'.v.st = .active ∧ w'.v.nick = w.v.nick ∧ w'.ps = w.ps := by
  intro w w'
  have e : w' = (run (ctx sz tx) l (fw (ctx sz tx) ps (a ++ b))).w := by
    show (run _ (a ++ b ++ l) _).w = _
    rw [run_append]
  rw [e]
  refine rest_inv (P := fun w' => w'.v.st = .active ∧ w'.v.nick = w.v.nick ∧ w'.ps = w.ps) l _ hul (rest_fw _ ps a b ha hub hb) ⟨hst, rfl, rfl⟩ ?_ ?_
  · intro rx w1 hx ⟨h1, h2, h3⟩
    obtain ⟨k1, k2, k3⟩ := deaf_active (c := ctx sz tx) rfl (hd rx hx) h1
    exact ⟨k1, k2.trans h2, k3.trans h3⟩
  · intro w1 ⟨h1, h2, h3⟩
    have k1 : (stepOp (ctx sz tx) (.tick 250) w1).2.v.st = w1.v.st := op_same _ (.tick 250) (fun _ h => by cases h) w1 .st rfl
    have k2 : (stepOp (ctx sz tx) (.tick 250) w1).2.v.nick = w1.v.nick := op_same _ (.tick 250) (fun _ h => by cases h) w1 .nick rfl
    have k3 : (stepOp (ctx sz tx) (.tick 250) w1).2.ps = w1.ps := op_same _ (.tick 250) (fun _ h => by cases h) w1 .ps rfl
    exact ⟨k1.trans h1, k2.trans h2, k3.trans h3⟩

/-! ### C97: reset -/

/-- C97 does not hold for the ARM example: a node which is told to reset itself, or to drop its nickname, never comes back.  Whatever is received, and however long it takes, as long as nobody
presses the button, it only asks the application for the reset (`vscp_portable_resetRequest`), which does nothing: nothing is sent, nothing is stored, and the state does not change. -/
theorem C97_arm_violated (sz : Nat) (tx : Nat → Bool) (ps : Nat → U8) (a b l : List Move) (ha : 101 ≤ released a) (hub : untouched b) (hb : 4 ≤ loopSteps b)
    (hul : untouched l) (hst : (fw (ctx sz tx) ps (a ++ b)).w.v.st = .reset) :
    let w := (fw (ctx sz tx) ps (a ++ b)).w
    let w' := (fw (ctx sz tx) ps (a ++ b ++ l)).w
    w'.v.st = .reset ∧ w'.v.nick = w.v.nick ∧ w'.ps = w.ps ∧ ∃ t, w'.out = w.out ++ t ∧ ∀ o ∈ t, o = .resetRequest := by
  intro w w'
  have e : w' = (run (ctx sz tx) l (fw (ctx sz tx) ps (a ++ b))).w := by
    show (run _ (a ++ b ++ l) _).w = _
    rw [run_append]
  rw [e]
  refine rest_inv (P := fun w' => w'.v.st = .reset ∧ w'.v.nick = w.v.nick ∧ w'.ps = w.ps ∧ ∃ t, w'.out = w.out ++ t ∧ ∀ o ∈ t, o = .resetRequest) l _ hul
    (rest_fw _ ps a b ha hub hb) ⟨hst, rfl, rfl, [], by simp [w], by simp⟩ ?_ ?_
  · intro rx w1 hx ⟨h1, h2, h3, t, h4, h5⟩
    have hs := process_state (ctx sz tx) rx w1
    rw [h1] at hs
    have k1 : (Core.process (ctx sz tx) rx w1).2.v.st = (preProcess (ctx sz tx) rx w1).2.v.st := hs.same .st (by decide)
    have k2 : (Core.process (ctx sz tx) rx w1).2.v.nick = (preProcess (ctx sz tx) rx w1).2.v.nick := hs.same .nick (by decide)
    have k3 : (Core.process (ctx sz tx) rx w1).2.ps = (preProcess (ctx sz tx) rx w1).2.ps := hs.same .ps (by decide)
    obtain ⟨t', k4, k5⟩ := hs.outs
    refine ⟨k1.trans ((pre_same _ rx w1 .st (by decide)).trans h1), k2.trans ((pre_same _ rx w1 .nick (by decide)).trans h2),
      k3.trans ((pre_same _ rx w1 .ps (by decide)).trans h3), t ++ t', ?_, ?_⟩
    · show (Core.process (ctx sz tx) rx w1).2.out = _
      rw [k4, pre_out, h4, List.append_assoc]
    · intro o ho
      rcases List.mem_append.mp ho with ho | ho
      · exact h5 o ho
      · obtain ⟨a, ha, he⟩ := k5 o ho
        simp only [stateActs, List.mem_cons, List.not_mem_nil, or_false] at ha
        rcases ha with rfl | rfl | rfl
        · exact he.elim
        · exact he
        · exact he.elim
  · intro w1 ⟨h1, h2, h3, t, h4, h5⟩
    have k1 : (stepOp (ctx sz tx) (.tick 250) w1).2.v.st = w1.v.st := op_same _ (.tick 250) (fun _ h => by cases h) w1 .st rfl
    have k2 : (stepOp (ctx sz tx) (.tick 250) w1).2.v.nick = w1.v.nick := op_same _ (.tick 250) (fun _ h => by cases h) w1 .nick rfl
    have k3 : (stepOp (ctx sz tx) (.tick 250) w1).2.ps = w1.ps := op_same _ (.tick 250) (fun _ h => by cases h) w1 .ps rfl
    have k4 : (stepOp (ctx sz tx) (.tick 250) w1).2.out = w1.out := calm_out _ (.tick 250) trivial (fun _ h => by cases h) w1
    exact ⟨k1.trans h1, k2.trans h2, k3.trans h3, t, k4.trans h4, h5⟩

/-- The button counts as not pressed: the main loop sees it within a pass. -/
theorem unseen {c : Ctx} : ∀ (b : List Move) (f : Fw) (k : Nat), untouched b → Btn f k → k + millis b ≤ 100 →
    (f.btn.last = false ∨ dist2 f ≤ loopSteps b) → (run c b f).btn.last = false
  | [], f, _, _, _, _, h => by
    rcases h with h | hd
    · exact h
    · unfold dist2 loopSteps at hd
      cases hp : f.pc <;> rw [hp] at hd <;> simp at hd
      split at hd <;> simp at hd
  | .tick p :: b, f, k, hu, hb, hk, h => by
    have hp : p = false := by cases p with
      | true => exact absurd (List.mem_cons_self ..) hu
      | false => rfl
    subst hp
    obtain ⟨e1, e2, e3, -⟩ := isr_pc false f
    have e4 : loopSteps (.tick false :: b) = loopSteps b := by unfold loopSteps; rw [List.countP_cons]; rfl
    have e5 : millis (.tick false :: b) = millis b + 1 := by unfold millis; rw [List.countP_cons]; rfl
    refine unseen b (isr false f) (k + 1) (fun h => hu (List.mem_cons_of_mem _ h)) (hb.tick false) (by omega) ?_
    rw [e3, ← e4]
    unfold dist2 at h ⊢
    rw [e1, e2]
    exact h
  | .step rx :: b, f, k, hu, hb, hk, h => by
    have hu' : untouched b := fun h => hu (List.mem_cons_of_mem _ h)
    have e4 : loopSteps (.step rx :: b) = loopSteps b + 1 := by unfold loopSteps; rw [List.countP_cons]; rfl
    have e5 : millis (.step rx :: b) = millis b := by unfold millis; rw [List.countP_cons]; rfl
    have h0 : f.btn.pressed = false := by rw [hb.pressed, decide_eq_false_iff_not]; omega
    rw [e4] at h
    refine unseen b (Arm.step c rx f) k hu' (hb.step rx) (by omega) ?_
    have hpc := hb.pc
    cases hp : f.pc with
    | process =>
      have e : (Arm.step c rx f).btn = f.btn ∧ (Arm.step c rx f).pc = .button := by unfold Arm.step; simp only [hp, and_self]
      have hpc : f.btn.pc ≠ .remember := fun h => by rw [hpc h] at hp; cases hp
      rw [e.1]
      refine h.imp id fun hd => ?_
      unfold dist2 at hd ⊢
      rw [hp] at hd
      rw [e.2, e.1]
      dsimp only at hd ⊢
      rw [if_neg hpc]
      omega
    | periodic =>
      have e : (Arm.step c rx f).btn = f.btn ∧ (Arm.step c rx f).pc = .process := by unfold Arm.step; simp only [hp, and_self]
      rw [e.1]
      refine h.imp id fun hd => ?_
      unfold dist2 at hd ⊢
      rw [hp] at hd
      rw [e.2]
      dsimp only at hd ⊢
      omega
    | button =>
      obtain ⟨-, b2, b3, b4⟩ := button_step f.btn
      have e : (Arm.step c rx f).btn = (Button.step f.btn).1 ∧ (Arm.step c rx f).pc = if (Button.step f.btn).1.pc = .check then .periodic else .button := by
        unfold Arm.step; simp only [hp, and_self]
      rw [e.1]
      cases hq : f.btn.pc with
      | check =>
        have e2 : (Arm.step c rx f).pc = .button := by rw [e.2, (b3 hq).1]; rfl
        rw [(b3 hq).2]
        refine h.imp id fun hd => ?_
        unfold dist2 at hd ⊢
        rw [hp, hq] at hd
        rw [e2, e.1, (b3 hq).1]
        simp only [reduceCtorEq, if_false, if_true] at hd ⊢
        omega
      | remember => exact .inl ((b4 hq).2.trans h0)

/-- C97 (part): whatever happened before (also to a node which waits for a reset), somebody presses the button, the main loop runs, and 101 ms after the button was released the node begins to look
for a nickname; if the timer interrupt 101 does not come between the two read accesses of the button. -/
theorem C97_button_partial (c : Ctx) (ps : Nat → U8) (a p b : List Move) (hp : untouched p) (hm : millis p = 100) (hl : 4 ≤ loopSteps p)
    (hs : loopSteps (a ++ .tick true :: p) % 4 ≠ 2) (hu : untouched b) (hb : 3 ≤ loopSteps b) :
    ∃ b1 b2, b = b1 ++ b2 ∧ (fw c ps (a ++ .tick true :: p ++ .tick false :: b1)).w.v.st = .init := by
  have h0 : Btn (fw c ps (a ++ [.tick true])) 0 := by
    have := btn_fw c ps (a ++ [.tick true])
    rwa [released_append] at this
  have e0 : fw c ps (a ++ .tick true :: p) = run c p (fw c ps (a ++ [.tick true])) := by
    rw [show a ++ .tick true :: p = (a ++ [.tick true]) ++ p by simp]
    exact run_append ..
  have hlast : (fw c ps (a ++ .tick true :: p)).btn.last = false := by
    rw [e0]
    refine unseen p _ 0 hp h0 (by omega) (.inr ?_)
    unfold dist2
    split
    · split <;> omega
    · omega
    · omega
  have hrel : ∀ l, untouched l → released (a ++ .tick true :: l) = millis l := by
    intro l
    induction l using snoc_induction with
    | nil => intro _; rw [released_append]; rfl
    | snoc l m ih =>
      intro hu
      obtain ⟨h1, h2⟩ := untouched_append.mp hu
      rw [show a ++ .tick true :: (l ++ [m]) = (a ++ .tick true :: l) ++ [m] by simp, released_append, millis_append, ih h1]
      cases m with
      | tick b => cases b with
        | true => exact absurd (List.mem_singleton.mpr rfl) h2
        | false => rfl
      | step rx => rfl
  have hbt := btn_fw c ps (a ++ .tick true :: p ++ [.tick false])
  have hpr : (fw c ps (a ++ .tick true :: p ++ [.tick false])).btn.pressed = true := by
    rw [hbt.pressed, released_append, hrel p hp, hm]; rfl
  have ef : fw c ps (a ++ .tick true :: p ++ [.tick false]) = isr false (fw c ps (a ++ .tick true :: p)) := fw_snoc ..
  have hpc : (fw c ps (a ++ .tick true :: p ++ [.tick false])).btn.pc = .check := by
    rw [ef, (isr_pc false _).2.1]
    rcases at_fw c ps (a ++ .tick true :: p) with ⟨-, -, h⟩ | ⟨-, -, h⟩ | ⟨h0, -, -⟩ | ⟨-, -, h⟩
    · exact h
    · exact h
    · exact absurd h0 hs
    · exact h
  have hd : dist (fw c ps (a ++ .tick true :: p ++ [.tick false])) ≤ loopSteps b := by
    unfold dist; split <;> omega
  obtain ⟨b1, b2, e, h⟩ := go c b _ hu hpr (by rw [ef, (isr_pc false _).2.2.1]; exact hlast) hpc hd
  refine ⟨b1, b2, e, ?_⟩
  rw [show a ++ .tick true :: p ++ .tick false :: b1 = (a ++ .tick true :: p ++ [.tick false]) ++ b1 by simp]
  show (run c ((a ++ .tick true :: p ++ [.tick false]) ++ b1) (boot c ps)).w.v.st = .init
  rw [run_append]
  exact h

/-! ### C98: the red LED -/

theorem lamp_fw (sz : Nat) (tx : Nat → Bool) (ps : Nat → U8) (l : List Move) (hr : ∀ m ∈ l, RxOk m) :
    lampAfter .off (fw (ctx sz tx) ps l).w.out = lampOf (fw (ctx sz tx) ps l).w.v.st := by
  obtain ⟨ops, h1, h2⟩ := fw_node (ctx sz tx) ps l hr
  have h3 : Callout.nodeC (ctx sz tx) (fun _ => []) allOk ps ops = node (ctx sz tx) allOk ps ops := Callout.C84_none ..
  rw [h1, ← h3]
  exact LampState.C86_lamp (good sz tx) (fun _ _ h => by simp at h) allOk ps ops h2

/-- C98: the LED changes only in the 250 ms period of the main loop, and then as the state of the node (behind this step) demands. -/
theorem C98_update (sz : Nat) (tx : Nat → Bool) (ps : Nat → U8) (l : List Move) (m : Move) (hr : ∀ x ∈ l ++ [m], RxOk x) :
    let f := fw (ctx sz tx) ps l
    let f' := fw (ctx sz tx) ps (l ++ [m])
    f'.led = f.led ∨ f'.led = Lamp.process (lampOf f'.w.v.st) f.led := by
  intro f f'
  have hl : lampAfter .off f'.w.out = lampOf f'.w.v.st := lamp_fw sz tx ps (l ++ [m]) hr
  have e : f' = move (ctx sz tx) f m := fw_snoc ..
  rw [e] at hl ⊢
  rw [← hl]
  cases m with
  | tick b => exact .inl rfl
  | step rx =>
    unfold move step
    cases hp : f.pc with
    | process => exact .inl rfl
    | button => exact .inl rfl
    | periodic =>
      dsimp only
      split
      · exact .inr rfl
      · exact .inl rfl

/-- The timer of the main loop. -/
structure Sw (s : SwTimer.State 2) : Prop where
  auto : s[1].isManual = false
  start : s[1].startValue = 250
  le : s[1].value.toNat ≤ 250

theorem Sw.tick {s : SwTimer.State 2} (h : Sw s) : Sw (SwTimer.process s) ∧ (SwTimer.process s)[1].value.toNat = s[1].value.toNat - 1 := by
  have e : (SwTimer.process s)[1] = SwTimer.tick s[1] := DrvProps.swProcess_get s 1 (by decide)
  have e2 := DrvProps.swTick_other s[1]
  have e3 := DrvProps.swTick_value s[1]
  exact ⟨⟨by rw [e, e2.1]; exact h.auto, by rw [e, e2.2]; exact h.start, by rw [e, e3]; have := h.le; omega⟩, by rw [e, e3]⟩

theorem Sw.poll {s : SwTimer.State 2} (h : Sw s) : Sw (SwTimer.getStatus MainLoop.ID s).2 ∧
    ((SwTimer.getStatus MainLoop.ID s).1 = false → (SwTimer.getStatus MainLoop.ID s).2 = s) ∧
    (s[1].value.toNat = 0 → (SwTimer.getStatus MainLoop.ID s).1 = true) := by
  have hid : MainLoop.ID.toNat = 1 := rfl
  by_cases hz : s[1].value = 0
  · have e : SwTimer.getStatus MainLoop.ID s = (true, s.set 1 { s[1] with value := s[1].startValue }) := by
      simp only [SwTimer.getStatus, hid]
      rw [dif_pos (by decide), if_pos hz, if_pos h.auto]
    rw [e]
    refine ⟨⟨?_, ?_, ?_⟩, fun h => (by cases h), fun _ => rfl⟩ <;> simp only [Vector.getElem_set_self, h.auto, h.start]
    decide
  · have e : SwTimer.getStatus MainLoop.ID s = (false, s) := by
      simp only [SwTimer.getStatus, hid]
      rw [dif_pos (by decide), if_neg hz]
    rw [e]
    exact ⟨h, fun _ => rfl, fun h => absurd (BitVec.eq_of_toNat_eq h) hz⟩

theorem Sw.move {c : Ctx} {f : Fw} (h : Sw f.sw) (m : Move) : Sw (move c f m).sw := by
  cases m with
  | tick b => exact h.tick.1
  | step rx =>
    unfold Arm.move Arm.step
    cases f.pc with
    | process => exact h
    | button => exact h
    | periodic => exact h.poll.1

theorem sw_fw (c : Ctx) (ps : Nat → U8) (l : List Move) : Sw (fw c ps l).sw := by
  induction l using snoc_induction with
  | nil =>
    have e := MainProps.initSw_get (n := 2) (by decide)
    exact ⟨by show (MainLoop.initSw 2)[1].isManual = _; rw [e], by show (MainLoop.initSw 2)[1].startValue = _; rw [e], by
      show (MainLoop.initSw 2)[1].value.toNat ≤ _; rw [e]; decide⟩
  | snoc l m ih => rw [fw_snoc]; exact ih.move m

theorem process_steady {L : Vscp.Lamp} (hL : L = .on ∨ L = .off) (s : Driver.Lamp.State) : (Driver.Lamp.process L s).lit = decide (L = .on) := by
  rcases hL with rfl | rfl <;> rfl

/-- A move while the lamp state is steady. -/
theorem led_move {c : Ctx} {f : Fw} {m : Move} {L : Vscp.Lamp} (hs : Sw f.sw) (hL : L = .on ∨ L = .off)
    (hl : lampAfter .off (move c f m).w.out = L) :
    (f.led.lit = decide (L = .on) → (move c f m).led.lit = decide (L = .on)) ∧
    ((move c f m).led.lit = decide (L = .on) ∨
      (move c f m).sw[1].value.toNat = f.sw[1].value.toNat - millis [m] ∧ ((∃ rx, m = .step rx) → f.pc = .periodic → f.sw[1].value.toNat ≠ 0)) := by
  cases m with
  | tick b => exact ⟨id, .inr ⟨hs.tick.2, fun ⟨_, h⟩ => (by cases h)⟩⟩
  | step rx =>
    revert hl
    unfold move step
    cases hp : f.pc with
    | process => exact fun _ => ⟨id, .inr ⟨rfl, fun _ h => (by cases h)⟩⟩
    | button => exact fun _ => ⟨id, .inr ⟨rfl, fun _ h => (by cases h)⟩⟩
    | periodic =>
      dsimp only
      intro hl
      obtain ⟨-, p2, p3⟩ := hs.poll
      cases hg : (SwTimer.getStatus MainLoop.ID f.sw).1 with
      | true =>
        rw [hg] at hl
        simp only [if_true] at hl ⊢
        rw [hl, process_steady hL]
        exact ⟨fun _ => rfl, .inl rfl⟩
      | false =>
        refine ⟨id, .inr ⟨?_, fun _ _ hz => ?_⟩⟩
        · rw [p2 hg]; rfl
        · rw [p3 hz] at hg; cases hg

/-- The first 250 ms: the LED is right, or the timer runs down. -/
theorem led_wait {c : Ctx} {L : Vscp.Lamp} (hL : L = .on ∨ L = .off) : ∀ (b : List Move) (f : Fw), Sw f.sw →
    (∀ b1 b2, b = b1 ++ b2 → b1 ≠ [] → lampAfter .off (run c b1 f).w.out = L) →
    (f.led.lit = decide (L = .on) → (run c b f).led.lit = decide (L = .on)) ∧
    ((run c b f).led.lit = decide (L = .on) ∨ (run c b f).sw[1].value.toNat + millis b ≤ f.sw[1].value.toNat + (millis b - f.sw[1].value.toNat))
  | [], f, _, _ => ⟨id, .inr (by show f.sw[1].value.toNat + 0 ≤ _; omega)⟩
  | m :: b, f, hs, hl => by
    have h1 := led_move hs hL (hl [m] b rfl (by simp))
    have h2 := led_wait (c := c) hL b (move c f m) (hs.move m) (fun b1 b2 e hn => hl (m :: b1) b2 (by rw [e]; rfl) (by simp))
    refine ⟨fun h => h2.1 (h1.1 h), ?_⟩
    rcases h1.2 with h | ⟨h, -⟩
    · exact .inl (h2.1 h)
    · rcases h2.2 with h' | h'
      · exact .inl h'
      · have e : millis (m :: b) = millis [m] + millis b := millis_append [m] b
        have : millis [m] ≤ 1 := by cases m <;> simp [millis]
        right
        show (run c b (move c f m)).sw[1].value.toNat + _ ≤ _
        omega

/-- Steps of the main loop until the 250 ms period. -/
def dist3 (f : Fw) : Nat := match f.pc with
  | .button => if f.btn.pc = .remember then 2 else 3
  | .process => 4
  | .periodic => 1

/-- The timer has elapsed: the LED is set within a pass of the main loop. -/
theorem led_set {c : Ctx} {L : Vscp.Lamp} (hL : L = .on ∨ L = .off) : ∀ (d : List Move) (f : Fw) (k : Nat), Sw f.sw → At f k →
    (∀ b1 b2, d = b1 ++ b2 → b1 ≠ [] → lampAfter .off (run c b1 f).w.out = L) →
    (f.led.lit = decide (L = .on) ∨ f.sw[1].value.toNat = 0 ∧ dist3 f ≤ loopSteps d) → (run c d f).led.lit = decide (L = .on)
  | [], f, _, _, _, _, h => by
    rcases h with h | ⟨-, hd⟩
    · exact h
    · unfold dist3 loopSteps at hd
      cases hp : f.pc <;> rw [hp] at hd <;> simp at hd
      split at hd <;> simp at hd
  | m :: d, f, k, hs, ha, hl, h => by
    have h1 := led_move hs hL (hl [m] d rfl (by simp))
    have hl' : ∀ b1 b2, d = b1 ++ b2 → b1 ≠ [] → lampAfter .off (run c b1 (move c f m)).w.out = L :=
      fun b1 b2 e hn => hl (m :: b1) b2 (by rw [e]; rfl) (by simp)
    have ha' : ∃ k', At (move c f m) k' := by
      cases m with
      | tick b =>
        obtain ⟨e1, e2, -, -⟩ := isr_pc b f
        exact ⟨k, by show At (isr b f) k; unfold At at ha ⊢; rw [e1, e2]; exact ha⟩
      | step rx => exact ⟨k + 1, ha.step rx⟩
    obtain ⟨k', ha'⟩ := ha'
    refine led_set hL d (move c f m) k' (hs.move m) ha' hl' ?_
    rcases h with h | ⟨hz, hd⟩
    · exact .inl (h1.1 h)
    · rcases h1.2 with h | ⟨hv, hn⟩
      · exact .inl h
      · right
        refine ⟨by rw [hv, hz, Nat.zero_sub], ?_⟩
        cases m with
        | tick b =>
          obtain ⟨e1, e2, -, -⟩ := isr_pc b f
          have e4 : loopSteps (.tick b :: d) = loopSteps d := by unfold loopSteps; rw [List.countP_cons]; rfl
          rw [← e4]
          show dist3 (isr b f) ≤ _
          unfold dist3
          rw [e1, e2]
          exact hd
        | step rx =>
          have e4 : loopSteps (.step rx :: d) = loopSteps d + 1 := by unfold loopSteps; rw [List.countP_cons]; rfl
          rw [e4] at hd
          have hnp : f.pc ≠ .periodic := fun e => hn ⟨rx, rfl⟩ e hz
          have hst := ha.step (c := c) rx
          show dist3 (Arm.step c rx f) ≤ _
          unfold dist3 at hd ⊢
          rcases ha with ⟨k0, p1, p2⟩ | ⟨k0, p1, p2⟩ | ⟨k0, p1, p2⟩ | ⟨k0, p1, p2⟩
          · rcases hst with ⟨_, q1, q2⟩ | ⟨_, q1, q2⟩ | ⟨_, q1, q2⟩ | ⟨_, q1, q2⟩ <;> simp [p1, p2, q1, q2] at hd ⊢ <;> omega
          · rcases hst with ⟨_, q1, q2⟩ | ⟨_, q1, q2⟩ | ⟨_, q1, q2⟩ | ⟨_, q1, q2⟩ <;> simp [p1, p2, q1, q2] at hd ⊢ <;> omega
          · rcases hst with ⟨_, q1, q2⟩ | ⟨_, q1, q2⟩ | ⟨_, q1, q2⟩ | ⟨_, q1, q2⟩ <;> simp [p1, p2, q1, q2] at hd ⊢ <;> omega
          · exact absurd p1 hnp

/-- C98: 250 ms and a pass of the main loop behind the moment the node became active, idle, told to reset or out of order, the LED is lit exactly if the node is active, whatever
happens and however the timer interrupts are scheduled; as long as the node remains in this state. -/
theorem C98_steady (sz : Nat) (tx : Nat → Bool) (ps : Nat → U8) (a b d : List Move) (hr : ∀ m ∈ a ++ b ++ d, RxOk m) (s : St)
    (hs : s = .active ∨ s = .idle ∨ s = .reset ∨ s = .error) (hb : 250 ≤ millis b) (hd : 4 ≤ loopSteps d)
    (hst : ∀ b1 b2, b ++ d = b1 ++ b2 → (fw (ctx sz tx) ps (a ++ b1)).w.v.st = s) :
    (fw (ctx sz tx) ps (a ++ b ++ d)).led.lit = decide (s = .active) := by
  have hL : lampOf s = .on ∨ lampOf s = .off := by rcases hs with rfl | rfl | rfl | rfl <;> simp [lampOf]
  have hL' : decide (s = .active) = decide (lampOf s = .on) := by rcases hs with rfl | rfl | rfl | rfl <;> rfl
  have hlamp : ∀ b1 b2, b ++ d = b1 ++ b2 → lampAfter .off (run (ctx sz tx) b1 (fw (ctx sz tx) ps a)).w.out = lampOf s := by
    intro b1 b2 e
    have h1 := lamp_fw sz tx ps (a ++ b1) (fun m hm => hr m (by
      rw [List.append_assoc, e]
      rcases List.mem_append.mp hm with hm | hm
      · exact List.mem_append_left _ hm
      · exact List.mem_append_right _ (List.mem_append_left _ hm)))
    have h2 := hst b1 b2 e
    have e2 : fw (ctx sz tx) ps (a ++ b1) = run (ctx sz tx) b1 (fw (ctx sz tx) ps a) := run_append ..
    rw [h2] at h1
    rw [← e2]
    exact h1
  have e : fw (ctx sz tx) ps (a ++ b ++ d) = run (ctx sz tx) d (run (ctx sz tx) b (fw (ctx sz tx) ps a)) := by
    show run _ (a ++ b ++ d) _ = _
    rw [run_append, run_append]
  have hw := led_wait (c := ctx sz tx) hL b (fw (ctx sz tx) ps a) (sw_fw _ ps a) (fun b1 b2 e _ => hlamp b1 (b2 ++ d) (by rw [e, List.append_assoc]))
  have eb : run (ctx sz tx) b (fw (ctx sz tx) ps a) = fw (ctx sz tx) ps (a ++ b) := (run_append ..).symm
  rw [e, hL']
  refine led_set (c := ctx sz tx) hL d _ (loopSteps (a ++ b)) (by rw [eb]; exact sw_fw _ ps _) (by rw [eb]; exact at_fw _ ps _) ?_ ?_
  · intro b1 b2 e _
    have := hlamp (b ++ b1) b2 (by rw [e, List.append_assoc])
    rw [run_append] at this
    exact this
  · rcases hw.2 with h | h
    · exact .inl h
    · right
      have := (sw_fw (ctx sz tx) ps a).le
      refine ⟨by omega, ?_⟩
      unfold dist3
      split
      · split <;> omega
      · omega
      · omega

/-! ### Examples -/

namespace Ex

/-- A valid memory with nickname 5. -/
def mem5 (a : Nat) : U8 := if a = Ps.addrNickname (cfg 16) then 5 else if a = Ps.addrFlags (cfg 16) then 0x60 else 0

/-- All transmissions succeed. -/
abbrev c := ctx 16 fun _ => true

/-- A pass of the main loop. -/
def pass (rx : Option Msg) : List Move := [.step rx, .step none, .step none, .step none]

/-- Nobody touches the button. -/
def wait (n : Nat) : List Move := List.replicate n (.tick false)

/-- 100 ms, in which the node becomes active with its nickname. -/
def a : List Move := pass none ++ wait 100 ++ pass none

/-- The main loop runs on. -/
def b : List Move := pass none

/-- `C96_lost_violated`: the node is active with nickname 5, and gives it up. -/
example : (∀ m ∈ a ++ .tick false :: b, RxOk m) ∧ untouched (a ++ .tick false :: b) ∧ millis a = 100 ∧ loopSteps a % 4 ≠ 2 ∧ 3 ≤ loopSteps b ∧
    (fw c mem5 a).w.v.st = .active ∧ (fw c mem5 a).w.v.nick = 5 ∧ (fw c mem5 (a ++ .tick false :: b)).w.v.nick = 0xFF := by
  refine ⟨?_, by unfold untouched; decide +kernel, by decide +kernel, by decide +kernel, by decide +kernel, by decide +kernel, by decide +kernel, by decide +kernel⟩
  intro m hm
  cases m with
  | tick b => trivial
  | step rx =>
    have : rx = none := by
      simp only [a, b, pass, wait, List.mem_append, List.mem_cons, List.mem_replicate, Move.step.injEq, reduceCtorEq, List.not_mem_nil, or_false, and_false, false_or, or_self] at hm
      exact hm
    subst this
    exact fun m h => (by cases h)

/-- Some seconds more. -/
def b' : List Move := pass none ++ (List.replicate 13 (wait 250 ++ pass none ++ pass none)).flatten

set_option maxRecDepth 1000000 in
/-- `C96_same_violated`: the node is active again, with nickname 1. -/
example : let w := (fw c mem5 (a ++ .tick false :: b')).w
    w.v.st = .active ∧ w.v.nick = 1 := by
  decide +kernel

theorem only_none {l : List Move} (h : l.all (fun m => match m with | .step (some _) => false | _ => true) = true) (rx : Option Msg) (hx : .step rx ∈ l) : rx = none := by
  have := List.all_eq_true.mp h _ hx
  cases rx with
  | none => rfl
  | some m => simp at this

/-- Its other hypotheses. -/
example : (∀ rx, .step rx ∈ a ++ .tick false :: b' → deafTo rx) ∧ untouched (a ++ .tick false :: b') ∧ 3 ≤ loopSteps b' := by
  refine ⟨fun rx hx m e => ?_, by unfold untouched; decide +kernel, by decide +kernel⟩
  rw [only_none (by decide +kernel) rx hx] at e
  cases e

/-- The timer interrupt 101 comes between the two read accesses of the button. -/
def a0 : List Move := pass none ++ wait 100 ++ [.step none, .step none, .tick false]

/-- `C96_kept_partial`: then the node keeps its nickname. -/
example : 101 ≤ released a0 ∧ untouched b ∧ 4 ≤ loopSteps b ∧ (fw c mem5 (a0 ++ b)).w.v.st = .active ∧ (fw c mem5 (a0 ++ b)).w.v.nick = 5 := by
  refine ⟨by decide +kernel, by unfold untouched; decide +kernel, by decide +kernel, by decide +kernel, by decide +kernel⟩

/-- Node 5 is told to drop its nickname. -/
def drop : List Move := [.step none, .step none, .step (some (Vscp.Ex.msg 0 8 0 [5])), .step none]

/-- `C97_arm_violated`: it waits for a reset, and asks for it. -/
example : untouched drop ∧ 4 ≤ loopSteps drop ∧ (fw c mem5 (a0 ++ drop)).w.v.st = .reset ∧ .resetRequest ∈ (fw c mem5 (a0 ++ drop ++ (pass none ++ pass none))).w.out := by
  refine ⟨by unfold untouched; decide +kernel, by decide +kernel, by decide +kernel, by decide +kernel⟩

/-- `C97_button_partial`: the way out. -/
def press : List Move := pass none ++ wait 100

example : untouched press ∧ millis press = 100 ∧ 4 ≤ loopSteps press ∧ loopSteps (a0 ++ drop ++ [.step none] ++ .tick true :: press) % 4 ≠ 2 ∧
    (fw c mem5 (a0 ++ drop ++ [.step none] ++ .tick true :: press ++ .tick false :: b)).w.v.st = .init := by
  refine ⟨by unfold untouched; decide +kernel, by decide +kernel, by decide +kernel, by decide +kernel, by decide +kernel⟩

/-- `C98_steady`: 250 ms and a pass of the main loop later the LED is lit. -/
example : (∀ b1 b2, wait 250 ++ pass none = b1 ++ b2 → (fw c mem5 (a0 ++ b ++ b1)).w.v.st = .active) ∧ (fw c mem5 (a0 ++ b)).led.lit = false ∧
    (fw c mem5 (a0 ++ b ++ wait 250 ++ pass none)).led.lit = true := by
  refine ⟨fun b1 b2 e => ?_, by decide +kernel, by decide +kernel⟩
  have hu : untouched (wait 250 ++ pass none) := by unfold untouched; decide +kernel
  rw [e] at hu
  refine (C96_kept_partial 16 _ mem5 a0 b b1 (by decide +kernel) (by unfold untouched; decide +kernel) (by decide +kernel) (untouched_append.mp hu).1 (fun rx hx m em => ?_)
    (by decide +kernel)).1
  rw [only_none (l := wait 250 ++ pass none) (by decide +kernel) rx (by rw [e]; exact List.mem_append_left _ hx)] at em
  cases em

end Ex

end Vscp.ArmProps
