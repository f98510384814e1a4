/-
The firmware of the AVR example: status LED (C89), reboot (C90), and the event functions behind its actions.
-/
import Verif.Props.AvrApp
import Verif.Lemmas.Discovery
import Verif.Props.Sleep
import Verif.Spec.Events

namespace Vscp.AvrProps
open M Spec Spec.Dm Spec.Avr Transport Safety Callout DmProps Registers Vscp.Avr

/-! ### The events of the actions -/

theorem fn_mem : fnOn ∈ Evt.functions ∧ fnOff ∈ Evt.functions := by
  constructor <;> decide +kernel

/-- C88: The events of the actions are what the send functions of src/events send, for every content of the stack. -/
theorem C88_info (c : Ctx) (p : Events.Plat) (stack : Vector U8 8) (w : W) (hh : c.hardCoded = false) :
    Events.send c p fnOn infoArgs stack w = ((some (Core.sendEvent c (infoMsg w.v.nick 3 stack) w).1), (Core.sendEvent c (infoMsg w.v.nick 3 stack) w).2) ∧
    Events.send c p fnOff infoArgs stack w = ((some (Core.sendEvent c (infoMsg w.v.nick 4 stack) w).1), (Core.sendEvent c (infoMsg w.v.nick 4 stack) w).2) := by
  have he : Events.exec p infoArgs fnOn.body stack 0 = .ok (((stack.set 0 0).set 1 0xFF).set 2 0xFF) 3 := rfl
  have he' : Events.exec p infoArgs fnOff.body stack 0 = .ok (((stack.set 0 0).set 1 0xFF).set 2 0xFF) 3 := rfl
  constructor
  · unfold Events.send
    rw [he]
    simp only [Core.prepareTxMessage, bind_run, get_run, pure_run, hh]
    rfl
  · unfold Events.send
    rw [he']
    simp only [Core.prepareTxMessage, bind_run, get_run, pure_run, hh]
    rfl

/-! ### C89 -/

theorem ledAfter_eq (b : Bool) (t : List Out) : ledAfter b t = ledThen b t := by
  unfold ledThen
  induction t generalizing b with
  | nil => rfl
  | cons o t ih =>
    have other : switch o = none → ledAfter b (o :: t) = ledAfter b t → ledAfter b (o :: t) = ((o :: t).filterMap switch).getLast?.getD b := by
      intro h1 h2
      rw [h2, ih, List.filterMap_cons, h1]
    cases o with
    | action a p m =>
      by_cases h1 : a = 1
      · subst h1
        show ledAfter true t = ((true :: t.filterMap switch).getLast?).getD b
        rw [ih, List.getLast?_cons]
        rfl
      · by_cases h2 : a = 2
        · subst h2
          show ledAfter false t = ((false :: t.filterMap switch).getLast?).getD b
          rw [ih, List.getLast?_cons]
          rfl
        · have hs : switch (.action a p m) = none := by
            unfold switch
            split
            · rename_i h; simp only [Out.action.injEq] at h; exact absurd h.1 h1
            · rename_i h; simp only [Out.action.injEq] at h; exact absurd h.1 h2
            · rfl
          refine other hs ?_
          show ledAfter (if a = 1 then true else if a = 2 then false else b) t = _
          rw [if_neg h1, if_neg h2]
    | _ => exact other rfl rfl

theorem ledThen_actions (b : Bool) (t : List Out) : ledThen b t = ledThen b (actions t) := by
  have : t.filterMap switch = (actions t).filterMap switch := by
    induction t with
    | nil => rfl
    | cons o t ih =>
      cases o with
      | action a p m =>
        show List.filterMap switch (.action a p m :: t) = List.filterMap switch (.action a p m :: actions t)
        rw [List.filterMap_cons, List.filterMap_cons, ih]
      | _ => exact ih
  unfold ledThen
  rw [this]

theorem led_of {s : Surr} {f : Fw} {op : Op} {t : List Out} (h : (call s op f).w.out = f.w.out ++ t) :
    (call s op f).led = { f.led with lit := ledThen f.led.lit (actions t) } := by
  have : (call s op f).led = { f.led with lit := ledAfter f.led.lit ((call s op f).w.out.drop f.w.out.length) } := rfl
  rw [this, h, List.drop_left, ledAfter_eq, ledThen_actions]

/-- C89: an event received by an active node switches the LED as the last action of the matching rows says; if no row switches it, it
stays as it is. -/
theorem C89_actions (s : Surr) (f : Fw) (m : Msg) (ha : f.w.v.st = .active) (hm : m.size.toNat ≤ 8) :
    ∃ pre post, (call s (.process (some m)) f).w.out = f.w.out ++ pre ++ post ∧ actions pre = [] ∧
      (call s (.process (some m)) f).led.lit = ledThen f.led.lit (calls (matrix (cfg s.sz) (memAfter f.w.ps pre)) m m.data.toList) := by
  obtain ⟨pre, t, post, h1, h2, -, h3, h4, -, -⟩ := C88_actions s f m ha hm
  refine ⟨pre, t ++ post, by rw [h1]; simp only [List.append_assoc], h3, ?_⟩
  rw [led_of h1, actions_append, actions_append, h3, h4, (reacts_only h2).1, List.nil_append, List.append_nil]

/-- C89: nothing else the framework is called for switches the LED. -/
theorem C89_only (s : Surr) (f : Fw) (op : Op) (h : ∀ rx, op = .process rx → f.w.v.st ≠ .active ∨ rx = none) :
    (call s op f).led = f.led := by
  obtain ⟨t, h1, h2⟩ := C88_only s f op h
  rw [led_of h1, h2]
  rfl

/-! ### C90 -/

theorem stateReset_out (w : W) : (Core.stateReset w).2.ps = w.ps ∧
    ((Core.stateReset w).2.out = w.out ∨ (Core.stateReset w).2.out = w.out ++ [.resetRequest]) := by
  unfold Core.stateReset
  simp only [bind_run, get_run, timerRunning_run, whenM_run]
  split
  · simp only [setV_run]
    generalize (if 0 < w.v.secCnt.toNat then w.v.secCnt - 1 else w.v.secCnt) = x
    by_cases hx : x = 0
    · rw [if_pos hx]
      exact ⟨rfl, .inr rfl⟩
    · rw [if_neg hx, timerStart_run]
      split <;> exact ⟨rfl, .inl rfl⟩
  · exact ⟨rfl, .inl rfl⟩

/-- A cycle which requests a reset does nothing else: the call is its only one, and the memory is as before.  (This is why the rest of the
cycle does not matter, although the call does not return.) -/
theorem reset_last (s : Surr) (rx : Option Msg) (f : Fw) (hrx : ∀ m, rx = some m → m.size.toNat ≤ 8)
    (h : .resetRequest ∈ (call s (.process rx) f).w.out.drop f.w.out.length) :
    f.w.v.st = .reset ∧ (call s (.process rx) f).w.out = f.w.out ++ [.resetRequest] ∧ (call s (.process rx) f).w.ps = f.w.ps := by
  by_cases hx : f.w.v.st = .active ∧ rx ≠ none
  · obtain ⟨ha, hn⟩ := hx
    cases rx with
    | none => exact absurd rfl hn
    | some m =>
      obtain ⟨pre, t, post, h1, -, -, -, -, -, h2⟩ := C88_actions s f m ha (hrx m rfl)
      rw [h1, List.drop_left] at h
      exact absurd h h2
  · have hw : (call s (.process rx) f).w = (Core.process (s.ctx f.life) rx f.w).2 := by
      refine calm_op (s.stack f.life) (.process rx) f.w fun r hr => ?_
      cases hr
      by_cases ha : f.w.v.st = .active
      · exact .inr (Classical.byContradiction fun hn => hx ⟨ha, hn⟩)
      · exact .inl ha
    rw [hw] at h ⊢
    have hst : (preProcess (s.ctx f.life) rx f.w).2.v.st = f.w.v.st := pre_same _ _ _ .st (by decide)
    have hps : (preProcess (s.ctx f.life) rx f.w).2.ps = f.w.ps := pre_same _ _ _ .ps (by decide)
    have hout : (preProcess (s.ctx f.life) rx f.w).2.out = f.w.out := pre_out _ _ _
    have quiet : ∀ {A : List Act}, Steps (s.ctx f.life) True A (preProcess (s.ctx f.life) rx f.w).2 (Core.process (s.ctx f.life) rx f.w).2 →
        Act.action ∉ A → Act.resetReq ∉ A → False := by
      intro A hs h1 h2
      obtain ⟨t, q1, -, q2⟩ := quiet_trace hs h1 h2
      rw [q1, hout, List.drop_left] at h
      exact q2 h
    cases hs : f.w.v.st with
    | reset =>
      rw [process_reset hs] at h ⊢
      obtain ⟨q1, q2⟩ := stateReset_out (preProcess (s.ctx f.life) rx f.w).2
      refine ⟨rfl, ?_, q1.trans hps⟩
      rcases q2 with q2 | q2
      · rw [q2, hout, List.drop_length] at h
        cases h
      · rw [q2, hout]
    | active =>
      have hr : rx = none := Classical.byContradiction fun hn => hx ⟨hs, hn⟩
      subst hr
      refine (quiet (A := [.customHb, .tx, .tm .heartbeat, .alarm, .appRead, .ext]) ?_ (by decide) (by decide)).elim
      rw [process_split, preProcess_rx]
      generalize (preProcess (s.ctx f.life) none f.w).2 = w1 at hst
      have hd : (Core.dispatch (s.ctx f.life) none w1).2 = (Core.activeExtRead (s.ctx f.life) (Core.activeHeartbeat (s.ctx f.life) w1).2).2 := by
        unfold Core.dispatch
        rw [bind_run, get_run]
        simp only [hst, hs]
        rfl
      show Steps _ _ _ w1 (Core.dispatch (s.ctx f.life) none w1).2
      rw [hd]
      exact Steps.trans (Foot.mono .activeHeartbeat (by decide) _) (Foot.mono .activeExtRead (by decide) _)
    | startup =>
      refine (quiet (A := [.guid, .tm .guidDrop, .st .init, .ist, .nick, .st .reset, .sec, .tm .main, .st .active, .tx,
        .tm .heartbeat]) ?_ (by decide) (by decide)).elim
      rw [process_split]
      generalize (preProcess (s.ctx f.life) rx f.w).2 = w1 at hst
      dsimp only
      unfold Core.dispatch
      rw [bind_run, get_run]
      simp only [hst, hs]
      exact Foot.bind .stateStartup (fun _ => .pure _) _
    | init =>
      refine (quiet (A := [.tx, .ist, .tm .main, .st .preActive, .st .idle, .idleEntered, .nick, .st .active, .tm .heartbeat])
        ?_ (by decide) (by decide)).elim
      rw [process_split]
      generalize (preProcess (s.ctx f.life) rx f.w).2 = w1 at hst
      dsimp only
      unfold Core.dispatch
      rw [bind_run, get_run]
      simp only [hst, hs]
      exact Foot.stateInit _ (hst.trans hs)
    | preActive =>
      refine (quiet (A := [.st .init, .ist, .nick, .tm .main, .tx, .st .active, .tm .heartbeat]) ?_ (by decide) (by decide)).elim
      rw [process_split]
      generalize (preProcess (s.ctx f.life) rx f.w).2 = w1 at hst
      dsimp only
      unfold Core.dispatch
      rw [bind_run, get_run]
      simp only [hst, hs]
      exact Foot.bind .statePreActive (fun _ => .pure _) _
    | idle =>
      refine (quiet (A := []) ?_ (by decide) (by decide)).elim
      rw [process_split]
      generalize (preProcess (s.ctx f.life) rx f.w).2 = w1 at hst
      dsimp only
      unfold Core.dispatch
      rw [bind_run, get_run]
      simp only [hst, hs]
      exact .refl _
    | error =>
      refine (quiet (A := []) ?_ (by decide) (by decide)).elim
      rw [process_split]
      generalize (preProcess (s.ctx f.life) rx f.w).2 = w1 at hst
      dsimp only
      unfold Core.dispatch
      rw [bind_run, get_run]
      simp only [hst, hs]
      exact .refl _

theorem run_append (s : Surr) (l : List Move) (m : Move) (f : Fw) : run s (l ++ [m]) f = move s m (run s l f) := by
  induction l generalizing f with
  | nil => rfl
  | cons x l ih => exact ih _

theorem fw_snoc (s : Surr) (ps : Nat → U8) (l : List Move) (m : Move) : fw s ps (l ++ [m]) = move s m (fw s ps l) := run_append ..

theorem other_quiet {s : Surr} {op : Op} (f : Fw) (h : ∀ rx, op ≠ .process rx) :
    ∃ t, (call s op f).w.out = f.w.out ++ t ∧ .resetRequest ∉ t := by
  have hw : (call s op f).w = (stepOp (s.ctx f.life) op f.w).2 := calm_op (s.stack f.life) op f.w (fun rx hr => absurd hr (h rx))
  obtain ⟨t, h1, -, h2⟩ := quiet_trace (op_steps (s.ctx f.life) op h f.w) (by cases op <;> simp [opActs]) (by cases op <;> simp [opActs])
  exact ⟨t, by rw [hw, h1], h2⟩

theorem boot_quiet (s : Surr) (past : List Out) (n : Nat) (ps : Nat → U8) : .resetRequest ∉ (boot s past n ps).w.out := by
  have hw : (boot s past n ps).w = (stepOp (s.ctx n) (.init fun _ => true) (powerUp ps)).2 :=
    calm_op (s.stack n) _ _ (fun _ h => (by cases h))
  obtain ⟨t, h1, -, h2⟩ := quiet_trace (op_steps (s.ctx n) (.init fun _ => true) (fun _ h => (by cases h)) (powerUp ps)) (by simp [opActs]) (by simp [opActs])
  rw [hw, h1]
  exact h2

theorem button_quiet (s : Surr) (i : In) (f : Fw) : ∃ t, (button s i f).w.out = f.w.out ++ t ∧ .resetRequest ∉ t := by
  unfold button
  dsimp only
  split
  · exact other_quiet f (fun _ h => (by cases h))
  · exact ⟨[], by simp, by simp⟩

theorem periodic_quiet (s : Surr) (i : In) (f : Fw) : ∃ t, (periodic s i f).w.out = f.w.out ++ t ∧ .resetRequest ∉ t := by
  unfold periodic
  split
  · obtain ⟨t, h1, h2⟩ := other_quiet (s := s) (op := .tick 250) f (fun _ h => Op.noConfusion h)
    exact ⟨t, h1, h2⟩
  · exact ⟨[], by simp, by simp⟩

/-- A pass either reboots, or is button and periodic part behind the cycle. -/
theorem pass_cases (s : Surr) (i : In) (f : Fw) (hi : MoveOk (.pass i)) :
    (f.w.v.st = .reset ∧ pass s i f = boot s (f.trace ++ [.resetRequest]) (f.life + 1) f.w.ps) ∨
    (pass s i f = periodic s i (button s i (call s (.process i.rx) f)) ∧
      .resetRequest ∉ (call s (.process i.rx) f).w.out.drop f.w.out.length) := by
  unfold pass
  dsimp only
  split
  · rename_i h
    obtain ⟨h1, h2, h3⟩ := reset_last s i.rx f (fun m hm => hi m hm) h
    refine .inl ⟨h1, ?_⟩
    unfold reboot
    rw [h2, h3, ← List.append_assoc]
    rfl
  · rename_i h
    exact .inr ⟨rfl, h⟩

theorem life_pass (s : Surr) (i : In) (f : Fw) : (periodic s i (button s i (call s (.process i.rx) f))).life = f.life := by
  unfold periodic button
  dsimp only
  split <;> split <;> rfl

/-- C90: the firmware restarts exactly in the passes in which the framework requests a reset.  Such a pass does nothing else: the node waited
for the reset, its persistent memory is unchanged, and everything else is as after power on. -/
theorem C90_restart (s : Surr) (ps : Nat → U8) (l : List Move) (i : In) (hi : MoveOk (.pass i)) :
    let f := fw s ps l
    let f' := fw s ps (l ++ [.pass i])
    (f'.life = f.life ∧ ∃ t, f'.trace = f.trace ++ t ∧ .resetRequest ∉ t) ∨
    (f.w.v.st = .reset ∧ f' = boot s (f.trace ++ [.resetRequest]) (f.life + 1) f.w.ps) := by
  intro f f'
  have e : f' = pass s i f := fw_snoc ..
  rw [e]
  rcases pass_cases s i f hi with h | ⟨h1, h2⟩
  · exact .inr h
  · refine .inl ⟨by rw [h1, life_pass], ?_⟩
    rw [h1]
    obtain ⟨t2, q2, r2⟩ := button_quiet s i (call s (.process i.rx) f)
    obtain ⟨t3, q3, r3⟩ := periodic_quiet s i (button s i (call s (.process i.rx) f))
    have hp : (periodic s i (button s i (call s (.process i.rx) f))).past = f.past := by
      unfold periodic button
      dsimp only
      split <;> split <;> rfl
    obtain ⟨L, -, hs⟩ := stepOpC_steps (c := s.ctx f.life) (cb_ok (s.stack f.life)) (op := .process i.rx)
      (by cases hr : i.rx with
        | none => trivial
        | some m => exact hi m hr) (w := f.w) (fun h => (by cases h))
    obtain ⟨t1, q1, -⟩ := hs.outs
    have q1' : (call s (.process i.rx) f).w.out = f.w.out ++ t1 := q1
    rw [q1', List.drop_left] at h2
    refine ⟨t1 ++ t2 ++ t3, ?_, ?_⟩
    · unfold Fw.trace
      rw [hp, q3, q2, q1']
      simp only [List.append_assoc]
    · simp only [List.mem_append, not_or]
      exact ⟨⟨h2, r2⟩, r3⟩

/-- C90: a node never runs on behind a request of a reset. -/
theorem C90_never (s : Surr) (ps : Nat → U8) (l : List Move) (hl : ∀ m ∈ l, MoveOk m) : .resetRequest ∉ (fw s ps l).w.out := by
  have gen : ∀ (l : List Move) (f : Fw), (∀ m ∈ l, MoveOk m) → .resetRequest ∉ f.w.out → .resetRequest ∉ (run s l f).w.out := by
    intro l
    induction l with
    | nil => intro f _ h; exact h
    | cons m l ih =>
      intro f hl h
      refine ih _ (fun x hx => hl x (by simp [hx])) ?_
      cases m with
      | power => exact boot_quiet _ _ _ _
      | pass i =>
        have hi := hl (.pass i) (by simp)
        show .resetRequest ∉ (pass s i f).w.out
        rcases pass_cases s i f hi with ⟨-, h1⟩ | ⟨h1, h2⟩
        · rw [h1]
          exact boot_quiet _ _ _ _
        · rw [h1]
          obtain ⟨t2, q2, r2⟩ := button_quiet s i (call s (.process i.rx) f)
          obtain ⟨t3, q3, r3⟩ := periodic_quiet s i (button s i (call s (.process i.rx) f))
          obtain ⟨L, -, hs⟩ := stepOpC_steps (c := s.ctx f.life) (cb_ok (s.stack f.life)) (op := .process i.rx)
            (by cases hr : i.rx with
              | none => trivial
              | some m => exact hi m hr) (w := f.w) (fun h => (by cases h))
          obtain ⟨t1, q1, -⟩ := hs.outs
          have q1' : (call s (.process i.rx) f).w.out = f.w.out ++ t1 := q1
          rw [q1', List.drop_left] at h2
          rw [q3, q2, q1']
          simp only [List.mem_append, not_or]
          exact ⟨⟨⟨h, h2⟩, r2⟩, r3⟩
  exact gen l _ hl (boot_quiet _ _ _ _)

theorem valid_ps {c : Cfg} (ps : Nat → U8) (hv : validStartUp (ps (Ps.addrFlags c)) = true) : psValid c ps = true := by
  unfold psValid
  generalize ps (Ps.addrFlags c) = x at hv
  rw [decide_eq_true_iff]
  revert hv
  revert x
  decide +kernel

/-- C90: after a restart (by a reset or by power off and on) nickname, zones, control flags, user id and decision matrix are those from before,
if the start-up control in the flags is valid. -/
theorem C90_kept (s : Surr) (past : List Out) (n : Nat) (ps : Nat → U8) (hv : validStartUp (ps (Ps.addrFlags (cfg s.sz))) = true) :
    (boot s past n ps).w.ps = ps ∧ (boot s past n ps).w.v.nick = ps (Ps.addrNickname (cfg s.sz)) ∧ (boot s past n ps).w.v.st = .startup := by
  obtain ⟨w1, h1, h2⟩ := init_run (s.ctx n) (fun _ => true) (powerUp ps)
  obtain ⟨r, hr⟩ := h1.v
  have hw : (boot s past n ps).w = w1 := by
    show (Core.init (s.ctx n) (fun _ => true) (powerUp ps)).2 = w1
    have hg : timersGood (s.ctx n).toCfg (fun _ => true) = true := rfl
    have hp : psValid (s.ctx n).toCfg w1.ps = true := by
      rw [h1.ps]
      exact valid_ps _ hv
    rw [h2, hg, hp]
    rfl
  rw [hw, h1.ps, hr]
  exact ⟨rfl, rfl, rfl⟩

/-! ### The LED in a pass -/

theorem button_led (s : Surr) (i : In) (f : Fw) : (button s i f).led = f.led := by
  unfold button
  dsimp only
  split
  · exact C89_only s f _ (fun _ h => (by cases h))
  · rfl

/-- C89: the LED after a pass without restart.  Unless the 250 ms elapsed it is as the actions of this pass left it (see `C89_actions` and
`C89_only`); otherwise it shows the state of the node. -/
theorem C89_pass (s : Surr) (ps : Nat → U8) (l : List Move) (i : In) (hl : ∀ m ∈ l ++ [.pass i], MoveOk m) :
    let f := fw s ps l
    let f' := fw s ps (l ++ [.pass i])
    f'.life = f.life → f'.led = if i.due then Driver.Lamp.process (lampOf f'.w.v.st) (call s (.process i.rx) f).led
      else (call s (.process i.rx) f).led := by
  intro f f' hlife
  have e : f' = pass s i f := fw_snoc ..
  rcases pass_cases s i f (hl _ (by simp)) with h | ⟨h1, -⟩
  · rw [e, h.2] at hlife
    exact absurd hlife (Nat.succ_ne_self f.life)
  · obtain ⟨ps', ops, hops, hn⟩ := fw_node s ps (l ++ [.pass i]) hl
    have hlamp : lampAfter .off f'.w.out = lampOf f'.w.v.st := by
      show lampAfter .off (fw s ps (l ++ [.pass i])).w.out = lampOf (fw s ps (l ++ [.pass i])).w.v.st
      rw [hn]
      exact LampState.C86_lamp (good ..) (cb_ok _) _ _ _ hops
    have e' := e.trans h1
    clear_value f'
    have hb := button_led s i (call s (.process i.rx) f)
    generalize button s i (call s (.process i.rx) f) = f1 at *
    unfold periodic at e'
    split
    · rename_i hd
      rw [if_pos hd] at e'
      have hc := C89_only s f1 (.tick 250) (fun _ h => Op.noConfusion h)
      dsimp only at e'
      generalize call s (.tick 250) f1 = f2 at *
      rw [← hlamp, e']
      show Driver.Lamp.process (lampAfter .off f2.w.out) f2.led = _
      rw [hc, hb]
    · rename_i hd
      rw [if_neg hd] at e'
      rw [e', hb]

/-- C89: whenever the 250 ms elapsed the LED is lit if the node is active and dark if it is idle, waits for a reset or failed: also if an action
switched it otherwise before. -/
theorem C89_state (s : Surr) (ps : Nat → U8) (l : List Move) (i : In) (hl : ∀ m ∈ l ++ [.pass i], MoveOk m) (hd : i.due = true) :
    let f' := fw s ps (l ++ [.pass i])
    f'.life = (fw s ps l).life → (f'.w.v.st = .active → f'.led.lit = true) ∧
      (f'.w.v.st = .idle ∨ f'.w.v.st = .reset ∨ f'.w.v.st = .error → f'.led.lit = false) := by
  intro f' hlife
  have h : f'.led = _ := C89_pass s ps l i hl hlife
  rw [if_pos hd] at h
  rw [h]
  constructor
  · intro hs
    rw [show (fw s ps (l ++ [.pass i])).w.v.st = _ from hs]
    rfl
  · intro hs
    rcases hs with hs | hs | hs
    all_goals
      rw [show (fw s ps (l ++ [.pass i])).w.v.st = _ from hs]
      rfl

/-! ### The wait -/

/-- The 250 ms steps a waiting node still waits. -/
def left (w : W) : Nat := ((w.tm.rem .main).toNat + 249) / 250 + 4 * (w.v.secCnt.toNat - 1)

/-- The node waits for a reset. -/
structure Waits (w : W) : Prop where
  st : w.v.st = .reset
  req : w.v.resetReq = false
  ok : w.tm.ok .main = true

theorem wait_process {c : Ctx} {w : W} (h : Waits w) (rx : Option Msg) :
    let w' := (Core.process c rx w).2
    w'.ps = w.ps ∧ (if left w = 0 then w'.out = w.out ++ [.resetRequest]
      else w'.out = w.out ∧ Waits w' ∧ left w' = left w ∧ 0 < (w'.tm.rem .main).toNat) := by
  intro w'
  have e1 : w' = (Core.stateReset (preProcess c rx w).2).2 := process_reset h.st
  have p1 : (preProcess c rx w).2.v.st = .reset := (pre_same c rx w .st (by decide)).trans h.st
  have p2 : (preProcess c rx w).2.tm.ok .main = true := by
    have := pre_same c rx w .ok (by decide)
    simp only [Comp.same] at this
    rw [this]; exact h.ok
  have p4 : (preProcess c rx w).2.ps = w.ps := pre_same c rx w .ps (by decide)
  have p5 : (preProcess c rx w).2.v.resetReq = false := (pre_same c rx w .reset (by decide)).trans h.req
  have p6 : (preProcess c rx w).2.tm.rem .main = w.tm.rem .main := pre_same c rx w (.tm .main) (by decide)
  have p7 : (preProcess c rx w).2.v.secCnt = w.v.secCnt := pre_same c rx w .sec (by decide)
  have p8 := pre_out c rx w
  have hl : left w = left (preProcess c rx w).2 := by unfold left; rw [p6, p7]
  rw [e1, hl, ← p4, ← p8]
  clear_value w'
  generalize (preProcess c rx w).2 = w1 at *
  rw [Sleep.stateReset_run w1 p2]
  have z : BitVec.toNat (0 : U16) = 0 := rfl
  by_cases hq : w1.v.resetReq = false ∧ w1.tm.rem .main = 0
  · rw [if_pos hq]
    by_cases h9 : w1.v.secCnt.toNat ≤ 1
    · have : left w1 = 0 := by unfold left; rw [hq.2, z]; omega
      rw [if_pos h9, if_pos this]
      exact ⟨rfl, rfl⟩
    · have : left w1 ≠ 0 := by unfold left; rw [hq.2, z]; omega
      rw [if_neg h9, if_neg this]
      have hs : (w1.v.secCnt - 1).toNat = w1.v.secCnt.toNat - 1 := by
        rw [BitVec.toNat_sub]; have := w1.v.secCnt.isLt; simp; omega
      have z' : BitVec.toNat (1000 : U16) = 1000 := rfl
      refine ⟨rfl, rfl, ⟨p1, p5, p2⟩, ?_, ?_⟩
      · unfold left
        simp only [if_true, z', hs, hq.2, z]
        omega
      · simp only [if_true, z']
        omega
  · rw [if_neg hq]
    have hr : w1.tm.rem .main ≠ 0 := fun h => hq ⟨p5, h⟩
    have hr' : (w1.tm.rem .main).toNat ≠ 0 := fun h => hr (BitVec.eq_of_toNat_eq h)
    have : left w1 ≠ 0 := by unfold left; omega
    rw [if_neg this]
    exact ⟨rfl, rfl, ⟨p1, p5, p2⟩, rfl, by omega⟩

theorem tick_call (s : Surr) (ms : Nat) (f : Fw) : (call s (.tick ms) f).w.v = f.w.v ∧ (call s (.tick ms) f).w.ps = f.w.ps ∧
    (call s (.tick ms) f).w.out = f.w.out ∧ (call s (.tick ms) f).w.tm.ok = f.w.tm.ok ∧ (call s (.tick ms) f).past = f.past ∧
    (call s (.tick ms) f).life = f.life ∧ ((call s (.tick ms) f).w.tm.rem .main).toNat = (f.w.tm.rem .main).toNat - ms :=
  ⟨rfl, rfl, rfl, rfl, rfl, rfl, tick_rem (s.ctx f.life) ms f.w .main⟩

/-- Passes in which the 250 ms have elapsed. -/
def dues : List In → Nat
  | [] => 0
  | i :: l => (if i.due then 1 else 0) + dues l

theorem wait_pass {s : Surr} {f : Fw} (h : Waits f.w) (i : In) (hi : MoveOk (.pass i)) (hb : i.pressed = false) :
    (left f.w = 0 → pass s i f = boot s (f.trace ++ [.resetRequest]) (f.life + 1) f.w.ps) ∧
    (left f.w ≠ 0 → Waits (pass s i f).w ∧ left (pass s i f).w = left f.w - (if i.due then 1 else 0) ∧ (pass s i f).w.ps = f.w.ps ∧
      (pass s i f).w.out = f.w.out ∧ (pass s i f).past = f.past ∧ (pass s i f).life = f.life) := by
  have hw : (call s (.process i.rx) f).w = (Core.process (s.ctx f.life) i.rx f.w).2 :=
    calm_op (s.stack f.life) (.process i.rx) f.w fun r _ => .inl (by rw [h.st]; exact fun h => (by cases h))
  obtain ⟨h1, h2⟩ := wait_process (c := s.ctx f.life) h i.rx
  rw [← hw] at h1 h2
  constructor
  · intro h0
    rw [if_pos h0] at h2
    rcases pass_cases s i f hi with h' | ⟨-, h'⟩
    · exact h'.2
    · rw [h2, List.drop_left] at h'
      exact absurd (List.mem_singleton.mpr rfl) h'
  · intro h0
    rw [if_neg h0] at h2
    obtain ⟨h2, h3, h4, h5⟩ := h2
    have hpass : pass s i f = periodic s i (button s i (call s (.process i.rx) f)) := by
      unfold pass
      dsimp only
      rw [h2, List.drop_length, if_neg (List.not_mem_nil)]
    have hbut : button s i (call s (.process i.rx) f) = { call s (.process i.rx) f with last := i.pressed' } := by
      unfold button
      rw [hb]
      rfl
    rw [hpass, hbut]
    have hpl : (call s (.process i.rx) f).past = f.past ∧ (call s (.process i.rx) f).life = f.life := ⟨rfl, rfl⟩
    generalize call s (.process i.rx) f = f1 at *
    unfold periodic
    by_cases hd : i.due = true
    · rw [if_pos hd, if_pos hd]
      dsimp only
      obtain ⟨k1, k2, k3, k4, k5, k6, k7⟩ := tick_call s 250 { f1 with last := i.pressed' }
      dsimp only at k1 k2 k3 k4 k5 k6 k7
      generalize call s (.tick 250) { f1 with last := i.pressed' } = f2 at *
      refine ⟨⟨by rw [k1]; exact h3.st, by rw [k1]; exact h3.req, by rw [k4]; exact h3.ok⟩, ?_, k2.trans h1, k3.trans h2, k5.trans hpl.1, k6.trans hpl.2⟩
      rw [← h4]
      unfold left
      rw [k7, k1]
      omega
    · rw [if_neg hd, if_neg hd]
      exact ⟨⟨h3.st, h3.req, h3.ok⟩, h4, h1, h2, hpl⟩

theorem waiting_passes {s : Surr} (l : List In) (hl : ∀ i ∈ l, MoveOk (.pass i) ∧ i.pressed = false) :
    ∀ f : Fw, Waits f.w → (l ≠ [] → dues l.dropLast < left f.w) →
      Waits (run s (l.map .pass) f).w ∧ left (run s (l.map .pass) f).w = left f.w - dues l ∧ (run s (l.map .pass) f).w.ps = f.w.ps ∧
      (run s (l.map .pass) f).w.out = f.w.out ∧ (run s (l.map .pass) f).past = f.past ∧ (run s (l.map .pass) f).life = f.life := by
  induction l with
  | nil => intro f h _; exact ⟨h, rfl, rfl, rfl, rfl, rfl⟩
  | cons i l ih =>
    intro f h hd
    have hd := hd (by simp)
    obtain ⟨hi, hb⟩ := hl i (by simp)
    have h0 : left f.w ≠ 0 := by omega
    obtain ⟨h1, h2, h3, h4, h5, h6⟩ := (wait_pass (s := s) h i hi hb).2 h0
    have hd' : l ≠ [] → dues l.dropLast < left (pass s i f).w := by
      intro hn
      rw [List.dropLast_cons_of_ne_nil hn] at hd
      rw [h2]
      simp only [dues] at hd
      omega
    obtain ⟨g1, g2, g3, g4, g5, g6⟩ := ih (fun x hx => hl x (by simp [hx])) _ h1 hd'
    refine ⟨g1, g2.trans ?_, g3.trans h3, g4.trans h4, g5.trans h5, g6.trans h6⟩
    rw [h2]
    simp only [dues]
    omega

theorem waits_of {w : W} {t : U8} (h : Sleep.Waiting w t) : Waits w ∧ left w = 4 * t.toNat := by
  refine ⟨⟨h.st, h.req, h.ok⟩, ?_⟩
  unfold left
  rw [h.rem, h.sec]
  have z : BitVec.toNat (0 : U16) = 0 := rfl
  have z' : BitVec.toNat (1000 : U16) = 1000 := rfl
  split
  · rename_i h0; subst h0; rw [z]; rfl
  · rename_i h0
    have : t.toNat ≠ 0 := fun h => h0 (BitVec.eq_of_toNat_eq h)
    rw [z']
    omega

/-- C90: a node which waits for a reset in `t` seconds (and whose button is not pressed) does nothing and stays silent, until the
250 ms task ran `4 t` times since the begin; in the next pass it restarts. -/
theorem C90_time (s : Surr) (f : Fw) (t : U8) (h : Sleep.Waiting f.w t) (l : List In)
    (hl : ∀ i ∈ l, MoveOk (.pass i) ∧ i.pressed = false) (hd : l ≠ [] → dues l.dropLast < 4 * t.toNat) :
    let f' := run s (l.map .pass) f
    f'.life = f.life ∧ f'.trace = f.trace ∧ f'.w.ps = f.w.ps ∧ f'.w.v.st = .reset ∧
      (dues l = 4 * t.toNat → ∀ i, MoveOk (.pass i) → i.pressed = false →
        pass s i f' = boot s (f.trace ++ [.resetRequest]) (f.life + 1) f.w.ps) := by
  obtain ⟨hw, hn⟩ := waits_of h
  obtain ⟨h1, h2, h3, h4, h5, h6⟩ := waiting_passes (s := s) l hl f hw (by rw [hn]; exact hd)
  intro f'
  have htr : f'.trace = f.trace := by unfold Fw.trace; rw [h4, h5]
  refine ⟨h6, htr, h3, h1.st, fun he i hi hb => ?_⟩
  rw [← htr, ← h6, ← h3]
  refine (wait_pass h1 i hi hb).1 ?_
  rw [h2, hn, he]
  omega

/-! ### The button -/

theorem button_run (s : Surr) (i : In) (f : Fw) (hp : i.pressed = true) (hf : f.last = false) :
    (button s i f).w = (stepOp (s.ctx f.life) .startNodeSegmentInit f.w).2 := by
  have e : button s i f = { call s .startNodeSegmentInit f with last := i.pressed' } := by
    unfold button
    rw [if_pos (by rw [hp, hf]; rfl)]
  rw [e]
  exact calm_op (s.stack f.life) .startNodeSegmentInit f.w (fun _ h => (by cases h))

theorem button_idle (s : Surr) (i : In) (f : Fw) (h : i.pressed = false ∨ f.last = true) : button s i f = { f with last := i.pressed' } := by
  unfold button
  rw [if_neg (by rcases h with h | h <;> rw [h] <;> simp)]

theorem periodic_w (s : Surr) (i : In) (f : Fw) : (periodic s i f).w.v = f.w.v ∧ (periodic s i f).w.ps = f.w.ps ∧ (periodic s i f).last = f.last ∧
    ∀ g : Fw, g.w = f.w → g.life = f.life → (periodic s i g).w = (periodic s i f).w := by
  unfold periodic
  split
  · refine ⟨(tick_call s 250 f).1, (tick_call s 250 f).2.1, by dsimp only [Avr.call], fun g h1 h2 => ?_⟩
    show (stepOpC (s.ctx g.life) (s.cb g.life) (.tick 250) g.w).2 = (stepOpC (s.ctx f.life) (s.cb f.life) (.tick 250) f.w).2
    rw [h1, h2]
  · exact ⟨rfl, rfl, rfl, fun g h1 _ => h1⟩

theorem start_run (c : Ctx) (w : W) : let w' := (stepOp c .startNodeSegmentInit w).2
    (w.v.st = .init → w' = w) ∧ (w.v.st ≠ .init → w'.v.st = .init ∧ w'.v.ist = .probeMaster ∧ w'.v.nick = 0xFF ∧ w'.ps = fun a => if a = Ps.addrNickname c then 0xFF else w.ps a) := by
  dsimp only
  show (_ → (Core.startNodeSegmentInit c w).2 = w) ∧ (_ → (Core.startNodeSegmentInit c w).2.v.st = .init ∧ (Core.startNodeSegmentInit c w).2.v.ist = .probeMaster ∧
    (Core.startNodeSegmentInit c w).2.v.nick = 0xFF ∧ (Core.startNodeSegmentInit c w).2.ps = _)
  unfold Core.startNodeSegmentInit
  rw [bind_run, get_run, whenM_run]
  refine ⟨fun h => by rw [if_neg (fun h' => h' h)], fun h => ?_⟩
  rw [if_pos h]
  refine ⟨(changeInit_run c true w h).1, (changeInit_run c true w h).2.1, ?_⟩
  unfold Core.changeToStateInit
  simp only [bind_run, get_run, whenM_run, if_pos h, emit_run, setV_run, writeNick_run]
  exact ⟨rfl, rfl⟩

/-- C77, in the firmware of the AVR example: a pass of the main loop which does not restart remembers the state of the button; with the button released, or pressed in the pass before,
the framework does what it does without a button; with the button pressed now and not before, the node gives up its nickname for good and looks for a new one, unless it already does. -/
theorem C77_firmware (s : Surr) (ps : Nat → U8) (l : List Move) (i : In) (hi : MoveOk (.pass i)) :
    let f := fw s ps l
    let f' := fw s ps (l ++ [.pass i])
    let g := fw s ps (l ++ [.pass { i with pressed := false }])
    f'.life = f.life → f'.last = i.pressed' ∧
      ((i.pressed = false ∨ f.last = true) → f'.w = g.w) ∧
      (i.pressed = true → f.last = false → (g.w.v.st = .init → f'.w = g.w) ∧
        (g.w.v.st ≠ .init → f'.w.v.st = .init ∧ f'.w.v.ist = .probeMaster ∧ f'.w.v.nick = 0xFF ∧
          f'.w.ps = fun a => if a = Ps.addrNickname (s.ctx f.life).toCfg then 0xFF else g.w.ps a)) := by
  intro f f' g hlife
  have e : f' = pass s i f := fw_snoc ..
  have eg : g = pass s { i with pressed := false } f := fw_snoc ..
  rcases pass_cases s i f hi with ⟨-, h⟩ | ⟨h1, h2⟩
  · rw [e, h] at hlife
    have : f.life + 1 = f.life := hlife
    omega
  have hg : g = periodic s i (button s { i with pressed := false } (call s (.process i.rx) f)) := by
    rw [eg]
    unfold pass
    dsimp only
    rw [if_neg h2]
    rfl
  rw [button_idle s { i with pressed := false } _ (.inl rfl)] at hg
  obtain ⟨q1, q2, q3, q4⟩ := periodic_w s i (button s i (call s (.process i.rx) f))
  obtain ⟨r1, r2, -, r4⟩ := periodic_w s i { call s (.process i.rx) f with last := i.pressed' }
  have hg' : g = periodic s i { call s (.process i.rx) f with last := i.pressed' } := hg
  have hlast : (call s (.process i.rx) f).last = f.last := rfl
  refine ⟨?_, fun h => ?_, fun hp hf => ⟨fun h => ?_, fun h => ?_⟩⟩
  · rw [e, h1, q3]
    rfl
  · rw [e, h1, hg', button_idle s i _ (by rw [hlast]; exact h)]
  · rw [e, h1, hg']
    rw [hg', r1] at h
    refine r4 _ ?_ ?_
    · rw [button_run s i (call s (.process i.rx) f) hp hf]
      exact (start_run ..).1 h
    · unfold button
      dsimp only
      split <;> rfl
  · rw [hg', r1] at h
    rw [e, h1, hg', q1, q2, r2, button_run s i (call s (.process i.rx) f) hp hf]
    exact (start_run ..).2 h

/-! ### Examples -/

/-- Surroundings: the CAN driver always succeeds. -/
def exSurr : Surr := ⟨16, fun _ => ⟨fun _ => true, fun _ _ _ _ => 0, fun _ _ _ _ _ => 0, fun _ _ _ _ => none, fun _ _ _ _ => none,
  fun _ => false, 0, 0, fun _ => 0, fun _ => 0⟩, fun _ _ => #v[0, 0, 0, 0, 0, 0, 0, 0]⟩

/-- Persistent memory of a node with nickname 5, writes enabled, zone 7, and two rows: events of class 30 and type 5 switch the LED on,
those with type 6 off. -/
def exMem : Nat → U8 := fun a => ([5, 0, 0x60, 0, 0, 0, 0, 0, 7, 8,
  0, 0x80, 0xFF, 30, 0xFF, 5, 1, 0,
  0, 0x80, 0xFF, 30, 0xFF, 6, 2, 0] : List U8).getD a 0

/-- A pass in which an event is received. -/
def rx (m : Msg) : Move := .pass ⟨some m, false, false, false⟩
/-- A pass of the 250 ms task. -/
def due : Move := .pass ⟨none, false, false, true⟩

/-- C87: the zone is written, the node restarted, the zone is read again, a register which does not exist is written. -/
example : let f := fw exSurr exMem [due, rx (Ex.msg 0 11 0 [5, 0, 42]), .power, due]
    f.w.v.st = .active ∧ f.life = 1 ∧ f.w.ps 8 = 42 ∧ regAfter 0 (exMem 8) f.trace = 42 ∧
    (call exSurr (.process (some (Ex.msg 0 9 0 [5, 0]))) f).w.out.drop f.w.out.length =
      [.appRead 0 0 42, .tx (Ex.msg 0 10 5 [0, 42]) true] ∧
    (call exSurr (.process (some (Ex.msg 0 11 0 [5, 9, 1]))) f).w.out.drop f.w.out.length =
      [.appWrite 0 9 1 0, .tx (Ex.msg 0 10 5 [9, 0]) true] := by
  decide +kernel

/-- C88, C89: an event switches the LED off, as the second row says, which sends its event; the LED is lit again by the next 250 ms task. -/
example : let f := fw exSurr exMem [due]
    let f1 := fw exSurr exMem [due, rx (Ex.msg 30 6 9 [])]
    let f2 := fw exSurr exMem [due, rx (Ex.msg 30 6 9 []), due]
    f.w.v.st = .active ∧ f.led.lit = true ∧ f1.led.lit = false ∧ f2.led.lit = true ∧
    f1.w.out.drop f.w.out.length = [.event (Ex.msg 30 6 9 []), .action 2 0 (Ex.msg 30 6 9 []), .tx (Ex.msg 20 4 5 [0, 0xFF, 0xFF]) true] := by
  decide +kernel

/-- C90: drop nickname with a reset after one second: the node waits, and restarts in the fifth pass of the 250 ms task. -/
example : let f := fw exSurr exMem [due, rx (Ex.msg 0 8 0 [5, 0xA0, 1])]
    let w := f.w
    w.v.st = .reset ∧ w.v.secCnt = 1 ∧ w.v.resetReq = false ∧ w.tm.ok .main = true ∧ w.tm.rem .main = 1000 ∧
    (run exSurr [due, due, due, due] f).life = 0 ∧ (run exSurr [due, due, due, due, due] f).life = 1 ∧
    (run exSurr [due, due, due, due, due] f).w.v.nick = 5 := by
  decide +kernel

/-- C77: the active node gives up nickname 5 in the pass in which the button is pressed first, and while it is held it does not begin again. -/
example : let p : Move := .pass ⟨none, true, true, true⟩
    let f := fw exSurr exMem [due]
    let f1 := fw exSurr exMem [due, p]
    f.life = f1.life ∧ f.last = false ∧ f.w.v.nick = 5 ∧ f.w.v.st = .active ∧ f1.last = true ∧ f1.w.v.st = .init ∧ f1.w.ps 0 = 0xFF ∧
    (fw exSurr exMem (due :: List.replicate 60 p)).w.v.st = .active ∧ (fw exSurr exMem (due :: List.replicate 60 p)).last = true := by
  decide +kernel

end Vscp.AvrProps
