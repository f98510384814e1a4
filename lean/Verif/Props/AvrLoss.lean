/-
Property theorems: the power of the AVR example is lost in the middle of a step of its main loop (C113, C115).
-/
import Verif.Spec.AvrLoss
import Verif.Props.NickLossC
import Verif.Props.AvrSys
import Verif.Props.SpeechBus

namespace Vscp.Avr.Sys
open M Vscp.Driver Vscp.Driver.CanNode Vscp.Spec Vscp.Spec.AvrSys Vscp.Safety Vscp.Wear Vscp.Callout

variable {s : Surr} {a : Nat → Around}

/-! ### Cycles which request a reset -/

/-- No reset is requested. -/
def Calm (w w' : W) : Prop := ∃ t, w'.out = w.out ++ t ∧ .resetRequest ∉ t

theorem Calm.refl (w : W) : Calm w w := ⟨[], by simp, by simp⟩
theorem Calm.trans {w w' w'' : W} (h : Calm w w') (h' : Calm w' w'') : Calm w w'' := by
  obtain ⟨t, h1, h2⟩ := h
  obtain ⟨t', h1', h2'⟩ := h'
  exact ⟨t ++ t', by rw [h1', h1, List.append_assoc], fun h => (List.mem_append.mp h).elim h2 h2'⟩

theorem calm_steps {c : Ctx} {A : List Act} {w w' : W} (h : Steps c True A w w') (hA : Act.resetReq ∉ A) : Calm w w' := by
  obtain ⟨t, h1, h2⟩ := h.outs
  refine ⟨t, h1, fun h => ?_⟩
  obtain ⟨x, hx, he⟩ := h2 _ h
  cases x <;> first | exact hA hx | (simp [Act.emits] at he; done)

theorem calm_ops {c : Ctx} : ∀ (ops : List Op), (∀ op ∈ ops, op.inCallback) → ∀ w, Calm w (runOps c ops w)
  | [], _, w => .refl w
  | op :: ops, h, w => by
    have h1 := h op (by simp)
    refine .trans (w' := (stepOp c op w).2) ?_ (calm_ops ops (fun o ho => h o (by simp [ho])) _)
    refine calm_steps (op_steps c op (fun rx e => by rw [e] at h1; exact h1) w) fun h => ?_
    cases op <;> (revert h; simp [opActs])

theorem calm_emit {o : Out} (h : o ≠ .resetRequest) (w : W) : Calm w (emit o w).2 := ⟨[o], rfl, fun h' => h (List.mem_singleton.mp h').symm⟩

/-- A reset is only requested by a node which waits for it. -/
theorem reset_state {c : Ctx} {cb : Callbacks} (hcb : CbOk cb) {rx : Option Msg} {w : W}
    (h : .resetRequest ∈ (Core.processC c cb rx w).2.out.drop w.out.length) : w.v.st = .reset := by
  apply Classical.byContradiction
  intro hn
  suffices hc : Calm w (Core.processC c cb rx w).2 by
    obtain ⟨t, h1, h2⟩ := hc
    rw [h1, List.drop_left] at h
    exact h2 h
  have hpre : Calm w (preProcess c rx w).2 := ⟨[], by rw [pre_out]; simp, by simp⟩
  by_cases ha : w.v.st = .active
  · have hw : Walk c cb Calm := ⟨.refl, .trans, fun h => calm_steps h (by decide), fun w => calm_ops (cb w) (hcb w) w⟩
    rcases active_walk hw (rx := rx) ha with ⟨m, w1, -, -, -, h2, h3⟩ | ⟨-, m, h⟩ | h
    · refine .trans (w' := w1) ?_ (.trans ?_ h3)
      · rcases h2 with rfl | rfl
        · exact hpre
        · exact hpre.trans (.trans (calm_emit (fun h => (by cases h)) _) (hw.call _))
      · refine calm_steps (handler_foot (c := c) (m := m) w1) ?_
        unfold Wear.typeActs
        repeat' (first | decide | split)
    · exact hpre.trans (.trans (calm_emit (fun h => (by cases h)) _) h)
    · exact hpre.trans h
  · rw [Speech.inactive_processC ha]
    refine hpre.trans (calm_steps (process_state c rx w) ?_)
    cases hs : w.v.st <;> first | exact absurd hs hn | exact absurd hs ha | decide

/-- Such a cycle writes nothing. -/
theorem reset_stored {c : Ctx} {cb : Callbacks} (hcb : CbOk cb) {rx : Option Msg} {w : W}
    (h : .resetRequest ∈ (stepOpC c cb (.process rx) w).2.out.drop w.out.length) : stored w (stepOpC c cb (.process rx) w).2 = [] := by
  have hs := reset_state hcb h
  have ha : w.v.st ≠ .active := by rw [hs]; decide
  have e : (stepOpC c cb (.process rx) w).2 = (Core.process c rx w).2 := Speech.inactive_processC ha
  obtain ⟨t, h1, h2⟩ := (process_state c rx w).outs
  rw [pre_out] at h1
  rw [e, stored_of h1]
  refine storedIn_nil fun x b hm => ?_
  obtain ⟨y, hy, he⟩ := h2 _ hm
  rw [hs] at hy
  cases y <;> first | (simp [Act.emits] at he; done) | (revert hy; simp [stateActs]; done)

/-! ### What is found -/

/-- The memory in the middle of a move. -/
inductive Cut (s : Surr) (y y' : State) (mem : Nat → U8) : Prop
  /-- Nothing has happened to the framework. -/
  | same (h : y'.fw.w = y.fw.w) (hm : mem = y.fw.w.ps)
  /-- In a call of the framework. -/
  | call (op : Op) (k : Nat) (hop : op.Ok) (hh : ∀ m, op = .process (some m) → y'.heard = y.heard ++ [m]) (hw : y'.fw.w = (stepOpC (s.ctx y.fw.life) (s.cb y.fw.life) op y.fw.w).2) (hm : mem = lossMem y.fw.w y'.fw.w k)
  /-- When the framework starts. -/
  | start (k : Nat) (hw : y'.fw.w = (stepOp (s.ctx y'.fw.life) (.init allOk) (powerUp y.fw.w.ps)).2) (hm : mem = lossMem (powerUp y.fw.w.ps) y'.fw.w k)

theorem found_same {y y' : State} (hp : y'.fw.past = y.fw.past) (hw : y'.fw.w = y.fw.w) (k : Nat) : found y y' k = y.fw.w.ps := by
  unfold found record
  rw [hp, hw, List.drop_length, List.take_nil]
  rfl

theorem found_call {y y' : State} (hp : y'.fw.past = y.fw.past) (k : Nat) : found y y' k = lossMem y.fw.w y'.fw.w k := by
  unfold found record lossMem
  rw [hp, List.length_append, ← List.drop_drop, List.drop_left]

theorem found_reset {y y' : State} {w1 : W} {t : List Out} (hp : y'.fw.past = y.fw.past ++ w1.out) (ht : w1.out = y.fw.w.out ++ t) (hs : storedIn t = [])
    (k : Nat) : ∃ j, found y y' k = lossMem (powerUp y.fw.w.ps) y'.fw.w j := by
  refine ⟨k - t.length, ?_⟩
  unfold found record lossMem
  rw [hp, ht, ← List.append_assoc, List.append_assoc, List.drop_left, List.take_append, memAfter_append]
  have : memAfter y.fw.w.ps (t.take k) = y.fw.w.ps := by
    rw [SegmentLoss.memAfter_stored]
    have : storedIn (t.take k) = [] := storedIn_nil fun x b hm => by
      have := mem_storedIn.mpr (List.mem_of_mem_take hm)
      rw [hs] at this
      cases this
    rw [this]
    rfl
  rw [this]
  rfl

theorem call_past (op : Op) (f : Fw) : (Avr.call s op f).past = f.past := rfl
theorem withLed_past (f : Fw) (x : Lamp.State) : (withLed f x).past = f.past := rfl
theorem later_past (f : Fw) : (later s f).past = f.past := by rw [later_eq, withLed_past, call_past]

theorem Does.cut {y y' : State} {mv : Move} (h : Does s a y mv y') (k : Nat) : Cut s y y' (found y y' k) := by
  have hcb := fun n => AvrProps.cb_ok (s.stack n)
  cases h with
  | tick b => exact .same rfl (found_same rfl rfl k)
  | cycle m x hpc hm hr hc => exact .call (.process m) k hm (fun m' e => by cases e; rfl) rfl (found_call (y := y) (y' := { y with fw := Avr.call s (.process m) y.fw, x, heard := y.heard ++ m.toList, pc := .check }) (call_past _ _) k)
  | reset m ctl hpc hm hr =>
    obtain ⟨t, ht⟩ := Speech.grows_callbacks (c := s.ctx y.fw.life) (hcb y.fw.life) (.process m) y.fw.w
    have hst := reset_stored (hcb y.fw.life) hr
    have e : (Avr.call s (.process m) y.fw).w.ps = y.fw.w.ps := by
      show (stepOpC (s.ctx y.fw.life) (s.cb y.fw.life) (.process m) y.fw.w).2.ps = _
      rw [NickLoss.opC_mem, hst]
      rfl
    rw [stored_of ht] at hst
    dsimp only
    rw [e]
    obtain ⟨j, hj⟩ := found_reset (y := y) (y' := boot s ((Avr.call s (.process m) y.fw).past ++ (Avr.call s (.process m) y.fw).w.out) ((Avr.call s (.process m) y.fw).life + 1) y.fw.w.ps ctl)
      (w1 := (stepOpC (s.ctx y.fw.life) (s.cb y.fw.life) (.process m) y.fw.w).2) rfl ht hst k
    exact .start j rfl hj
  | segInit x hpc hp hl hc => exact .call .startNodeSegmentInit k trivial (fun _ e => by cases e) rfl (found_call (y := y) (y' := { y with fw := Avr.call s .startNodeSegmentInit y.fw, x, pc := .remember }) (call_past _ _) k)
  | quiet hpc hp => exact .same rfl (found_same rfl rfl k)
  | remember hpc => exact .same rfl (found_same rfl rfl k)
  | due x sw hpc hz hsw hc => exact .call (.tick 250) k trivial (fun _ e => by cases e) (later_w _) (found_call (y := y) (y' := { y with fw := later s y.fw, x, sw, clk := Clock.process (MainLoop.PERIOD.setWidth 16) y.clk, pc := .process }) (later_past _) k)
  | notDue hpc hz => exact .same rfl (found_same rfl rfl k)
  | rx b x hc => exact .same rfl (found_same rfl rfl k)
  | tx x hc => exact .same rfl (found_same rfl rfl k)
  | power =>
    obtain ⟨j, hj⟩ := found_reset (y := y) (y' := reboot s y) (w1 := y.fw.w) (t := []) rfl (by simp) rfl k
    exact .start j rfl hj

theorem keeps_cb (st : Nat → Vector U8 8) : NickLoss.Keeps (Avr.cb st) := fun w op h => by
  obtain ⟨m, rfl⟩ := Speech.avr_cb_sends h
  exact ⟨fun h => (by cases h), fun h => (by cases h)⟩

theorem Reach.run {l : List Move} : ∀ {y y' : State}, Inv s y → Reach s a y → (∀ mv ∈ l, AvrSys.Ok mv) → Sys.run s a l y = .ok y' → Reach s a y' := by
  induction l with
  | nil => intro y y' _ h _ e; cases e; exact h
  | cons mv l ih =>
    intro y y' hi h hl hr
    obtain ⟨y1, hd, hi', hr'⟩ := run_does hi (fun mv h => hl mv (List.mem_cons_of_mem _ h)) (hl mv (List.mem_cons_self ..)) hr
    exact ih hi' (reach_does hi (hl mv (List.mem_cons_self ..)) h hd) (fun mv h => hl mv (List.mem_cons_of_mem _ h)) hr'

theorem boot_reach (past : List Out) (n : Nat) (ps : Nat → U8) (ctl : CanDrv.State) : Reach s a (boot s past n ps ctl) :=
  ⟨ps, ctl, [], fun _ h => (by cases h), fun _ h => (by cases h), rfl⟩

theorem Reach.nick {y : State} (h : Reach s a y) : y.fw.w.v.nick = y.fw.w.ps (Ps.addrNickname (s.ctx y.fw.life)) := by
  obtain ⟨ps, ctl, lc, h1, -, h3⟩ := h
  obtain ⟨rs, -, -, e, hok⟩ := CanNode.C105_history (AvrProps.good s.sz (s.env y.fw.life)) (AvrProps.cb_ok _) (a y.fw.life) allOk ps ctl lc h1 h3
  have := C84_nickname_stored (AvrProps.good s.sz (s.env y.fw.life)) (AvrProps.cb_ok (s.stack y.fw.life)) allOk ps _ hok
  have e' : y.fw.w = nodeC (s.ctx y.fw.life) (s.cb y.fw.life) allOk ps (Spec.CanNode.callsOf lc rs) := e
  rw [e']
  exact this

/-- C115: whenever the AVR example loses its power, at any point of any step of its main loop, also while it starts again, it has the nickname from before
the step, that from behind it, or none, when it is switched on. -/
theorem C115_avr {past : List Out} {n : Nat} {ps : Nat → U8} {ctl : CanDrv.State} {l : List Move} (hl : ∀ mv ∈ l, AvrSys.Ok mv) {y y' : State}
    (hr : run s a l (boot s past n ps ctl) = .ok y) {mv : Move} (hmv : AvrSys.Ok mv) (hm : move s a y mv = .ok y') (k : Nat)
    (past' : List Out) (n' : Nat) (ctl' : CanDrv.State) :
    let r := boot s past' n' (found y y' k) ctl'
    r.fw.w.v.nick = y.fw.w.v.nick ∨ r.fw.w.v.nick = y'.fw.w.v.nick ∨ r.fw.w.v.nick = 0xFF := by
  intro r
  have hi := inv_of (boot_inv past n ps ctl) hl hr
  have hre := Reach.run (boot_inv past n ps ctl) (boot_reach (a := a) past n ps ctl) hl hr
  obtain ⟨hd, hre'⟩ : Does s a y mv y' ∧ Reach s a y' := by
    rcases move_does (a := a) hi mv hmv with e | ⟨y1, e, h1, h2⟩
    · rw [e] at hm; cases hm
    · rw [e] at hm; cases hm; exact ⟨h1, reach_does hi hmv hre h1⟩
  have e1 := hre.nick
  have e2 := hre'.nick
  have e3 := NickLoss.init_nick (AvrProps.good s.sz (s.env n')) allOk (found y y' k)
  have e3 : r.fw.w.v.nick = found y y' k (Ps.addrNickname (s.ctx n')) ∨ r.fw.w.v.nick = 0xFF := e3
  rcases e3 with e3 | e3
  · rw [e1, e2, e3]
    cases hd.cut k with
    | same h hm => exact .inl (by rw [hm]; rfl)
    | call op j hop hh hw hm =>
      have := (NickLoss.C115_callbacks (c := s.ctx y.fw.life) (AvrProps.cb_ok (s.stack y.fw.life)) (keeps_cb _) op y.fw.w j).1
      rw [hm, hw]
      exact this
    | start j hw hm =>
      have := NickLoss.C115_nickname (s.ctx y'.fw.life) (.init allOk) (powerUp y.fw.w.ps) j
      rw [hm, hw]
      exact this
  · exact .inr (.inr e3)

/-- C113: whenever the AVR example loses its power, at any point of any step of its main loop, the settings it finds when it is switched on are those from before the step; or what the frame
just received makes of them, where a page write may be cut short to its first bytes; or, if the factory settings are restored in this step, every byte of them is that of the factory
settings or the one it would have without. -/
theorem C113_avr {past : List Out} {n : Nat} {ps : Nat → U8} {ctl : CanDrv.State} {l : List Move} (hl : ∀ mv ∈ l, AvrSys.Ok mv) {y y' : State}
    (hr : run s a l (boot s past n ps ctl) = .ok y) {mv : Move} (hmv : AvrSys.Ok mv) (hm : move s a y mv = .ok y') (k : Nat) :
    let c := s.ctx y.fw.life
    let old := settings c y.fw.w
    let new := kept c (found y y' k)
    (∃ op, op.Ok ∧ (∀ m, op = .process (some m) → y'.heard = y.heard ++ [m]) ∧ y'.fw.w = (stepOpC c (s.cb y.fw.life) op y.fw.w).2 ∧
      ((∃ x, old.Partly c y.fw.w op x ∧ new = x.saved) ∨ factoryReset y.fw.w y'.fw.w ∧ (old.after c y.fw.w op).saved.Between c new)) ∨
    new = old.saved ∨ (factoryReset (powerUp y.fw.w.ps) y'.fw.w ∧ old.saved.Between c new) := by
  intro c old new
  have hi := inv_of (boot_inv past n ps ctl) hl hr
  have hd : Does s a y mv y' := by
    rcases move_does (a := a) hi mv hmv with e | ⟨y1, e, h1, h2⟩
    · rw [e] at hm; cases hm
    · rw [e] at hm; cases hm; exact h1
  have hsv : settings c (powerUp y.fw.w.ps) = old.saved := rfl
  cases hd.cut k with
  | same h hm =>
    refine .inr (.inl ?_)
    show kept c (found y y' k) = old.saved
    rw [hm]
    exact hsv
  | call op j hop hh hw hm =>
    refine .inl ⟨op, hop, hh, hw, ?_⟩
    have key := (Sett.opC_lost (c := c) (AvrProps.cb_ok (s.stack y.fw.life)) rfl (CanConfig.avrPlain s y.fw.life) op y.fw.w fun rx m e ht => by
      subst e
      refine (hi.good.lb.read rx ?_).2.2 m ht.2.1
      rintro m' rfl
      exact hop).is j
    show (∃ x, old.Partly c y.fw.w op x ∧ kept c (found y y' k) = x.saved) ∨ factoryReset y.fw.w y'.fw.w ∧ (old.after c y.fw.w op).saved.Between c (kept c (found y y' k))
    rw [hm, hw]
    exact key
  | start j hw hm =>
    refine .inr ?_
    have key := (Sett.op_lost (c := s.ctx y'.fw.life) (CanConfig.avrPlain s y'.fw.life) (.init allOk) (powerUp y.fw.w.ps) fun rx m e => (by cases e)).is j
    rw [← hw, ← hm] at key
    rcases key with ⟨x, h1, h2⟩ | ⟨h1, h2⟩
    · have h1 : x = old.saved := h1
      subst h1
      exact .inl h2
    · exact .inr ⟨h1, h2⟩

/-! ### Concrete cases -/

/-- The example is given the nickname 9. -/
def exGive : List Move := [.rx (Spec.CanNode.protocol 3 false 6 1 [5, 9])]

-- The power is lost in the cycle which gives the nickname 9, and in one with an extended page write: the hypotheses are met.
example : (∀ mv ∈ exMs false ++ exGive ++ [.step], AvrSys.Ok mv) ∧ (match exHist (exMs false ++ exGive), exHist (exMs false ++ exGive ++ [.step]) with
    | .ok y, .ok y' => decide (y.fw.w.v.nick = 5 ∧ y'.fw.w.v.nick = 9 ∧
        ((List.range 3).map fun k => (boot AvrProps.exSurr [] 1 (found y y' k) y'.x.1).fw.w.v.nick) = [5, 9, 9])
    | _, _ => false) = true := by
  refine ⟨?_, by decide +kernel⟩
  simp [exGive, exMs, AvrSys.Ok, Spec.CanDrv.Valid, Spec.CanNode.protocol]

example : (match exHist (exMs false ++ exSet.take 9), exHist (exMs false ++ exSet.take 10) with
    | .ok y, .ok y' => decide (((List.range 6).map fun k => ((kept (AvrProps.exSurr.ctx 0) (found y y' k)).dm 5, (kept (AvrProps.exSurr.ctx 0) (found y y' k)).dm 7)) =
        [(5, 0), (5, 0), (7, 0), (7, 0), (7, 9), (7, 9)])
    | _, _ => false) = true := by decide +kernel

end Vscp.Avr.Sys
