/-
Property theorems: the heartbeat of the AVR example (C119).
-/
import Verif.Spec.AvrBeat
import Verif.Props.AvrSys
import Verif.Props.Time

namespace Vscp.Avr.Sys
open M Vscp.Driver Vscp.Spec Vscp.Spec.AvrSys Vscp.Safety Vscp.Transport
open Vscp.Driver.CanNode (Around Res)

variable {s : Surr} {a : Nat → Around}

/-! ### A cycle -/

theorem filter_none {t : List Out} (h : ∀ o ∈ t, NoBeat o) : t.filter isHeartbeat = [] :=
  List.filter_eq_nil_iff.mpr fun o ho => by rw [h o ho]; exact Bool.false_ne_true

theorem reacts_quiet {nick : U8} {l t : List Out} (h : Spec.Avr.Reacts nick l t) : ∀ o ∈ t, NoBeat o := by
  have info : ∀ {typ : U8} {e : Msg} {r : Bool}, typ ≠ 9 → Spec.Avr.Info typ nick e → NoBeat (.tx e r) := by
    intro typ e r ht hi
    unfold NoBeat isHeartbeat
    exact decide_eq_false fun h => ht (hi.typ.symm.trans h.2)
  induction h with
  | nil => simp
  | on h _ ih =>
    intro o ho
    rcases List.mem_cons.1 ho with rfl | ho
    · rfl
    rcases List.mem_cons.1 ho with rfl | ho
    · exact info (by decide) h
    · exact ih o ho
  | off h _ ih =>
    intro o ho
    rcases List.mem_cons.1 ho with rfl | ho
    · rfl
    rcases List.mem_cons.1 ho with rfl | ho
    · exact info (by decide) h
    · exact ih o ho
  | other _ _ _ ih =>
    intro o ho
    rcases List.mem_cons.1 ho with rfl | ho
    · rfl
    · exact ih o ho

/-- What a call does to the heartbeat of a node whose heartbeat is switched on. -/
structure Pulse (c : Ctx) (w w' : W) (t : List Out) (due : Prop) [Decidable due] : Prop where
  out : w'.out = w.out ++ t
  ok : w'.tm.ok = w.tm.ok
  on : w'.v.hbOn = w.v.hbOn
  beat : due → w'.tm.rem .heartbeat = c.hbPeriod ∧ ∃ ok, t.filter isHeartbeat = [.tx (beatFrame c w') ok]
  none : ¬ due → (w'.tm.rem .heartbeat = w.tm.rem .heartbeat ∨ w'.tm.rem .heartbeat = c.hbPeriod) ∧ t.filter isHeartbeat = []

/-- The end of the cycle of an active node. -/
theorem tail_pulse (k : Nat) {w : W} (hok : w.tm.ok .heartbeat = true) : ∃ t,
    Pulse (s.ctx k) w (Core.activeExtRead (s.ctx k) (Core.activeHeartbeat (s.ctx k) w).2).2 t (Due (s.ctx k) w) ∧
    (¬ Due (s.ctx k) w → (Core.activeExtRead (s.ctx k) (Core.activeHeartbeat (s.ctx k) w).2).2.tm.rem .heartbeat = w.tm.rem .heartbeat) := by
  obtain ⟨t2, ht2, hn2⟩ := Time.readOpt_calls (s.ctx k) (Core.activeHeartbeat (s.ctx k) w).2
  have hs1 : Steps (s.ctx k) True _ w (Core.activeHeartbeat (s.ctx k) w).2 := Foot.activeHeartbeat w
  have hs2 : Steps (s.ctx k) True _ (Core.activeHeartbeat (s.ctx k) w).2 _ := Foot.activeExtRead _
  have e1 := Comp.same_trans (hs1.same .ok (by decide)) (hs2.same .ok (by decide))
  have e2 := Comp.same_trans (hs1.same .hb (by decide)) (hs2.same .hb (by decide))
  have e3 := Comp.same_trans (hs1.same .nick (by decide)) (hs2.same .nick (by decide))
  have e4 := Comp.same_trans (hs1.same .ps (by decide)) (hs2.same .ps (by decide))
  have e5 := hs2.same (.tm .heartbeat) (by decide)
  simp only [Comp.same] at e1 e2 e3 e4 e5
  by_cases hd : Due (s.ctx k) w
  · obtain ⟨h1, h2⟩ := (heartbeat_run (s.ctx k) w).1 hd
    refine ⟨[.tx (beatFrame (s.ctx k) w) ((s.ctx k).txOk w.out.length)] ++ t2, ⟨?_, e1, e2, fun _ => ⟨?_, (s.ctx k).txOk w.out.length, ?_⟩, fun h => absurd hd h⟩, fun h => absurd hd h⟩
    · rw [ht2, h1]
      exact List.append_assoc ..
    · rw [e5, h2]
      simp [hok]
    · have hf : beatFrame (s.ctx k) (Core.activeExtRead (s.ctx k) (Core.activeHeartbeat (s.ctx k) w).2).2 = beatFrame (s.ctx k) w := by
        have hz : ∀ w : W, beatFrame (s.ctx k) w = ⟨3, 20, 9, w.v.nick, false, 3, bytes8 [0, w.ps (Ps.addrZone (s.ctx k)), w.ps (Ps.addrSubZone (s.ctx k))]⟩ := fun _ => rfl
        rw [hz, hz, e3, e4]
      rw [hf, List.filter_append, filter_none hn2, List.append_nil]
      rfl
  · have h1 := (heartbeat_run (s.ctx k) w).2 hd
    refine ⟨t2, ⟨by rw [ht2, h1], e1, e2, fun h => absurd h hd, fun _ => ⟨.inl ?_, filter_none hn2⟩⟩, fun _ => ?_⟩ <;> rw [e5, h1]

theorem due_avr {k : Nat} {w : W} (hok : w.tm.ok .heartbeat = true) (hon : w.v.hbOn = true) : Due (s.ctx k) w ↔ w.tm.rem .heartbeat = 0 := by
  rw [Time.due_iff]
  exact ⟨fun h => h.2.2 hok, fun h => ⟨rfl, hon, fun _ => h⟩⟩

/-- The cycle of an active node: a heartbeat if its timer is not running, and none otherwise. -/
theorem active_pulse (k : Nat) (rx : Option Msg) {w : W} (ha : w.v.st = .active) (hok : w.tm.ok .heartbeat = true) (hon : w.v.hbOn = true) :
    ∃ t, Pulse (s.ctx k) w (stepOpC (s.ctx k) (s.cb k) (.process rx) w).2 t (w.tm.rem .heartbeat = 0) ∧
    (w.tm.rem .heartbeat ≠ 0 → (stepOpC (s.ctx k) (s.cb k) (.process rx) w).2.tm.rem .heartbeat = w.tm.rem .heartbeat) := by
  have key : ∃ w1 t1, (stepOpC (s.ctx k) (s.cb k) (.process rx) w).2 = (Core.activeExtRead (s.ctx k) (Core.activeHeartbeat (s.ctx k) w1).2).2 ∧
      w1.out = w.out ++ t1 ∧ (∀ o ∈ t1, NoBeat o) ∧ w1.tm.ok = w.tm.ok ∧ w1.v.hbOn = w.v.hbOn ∧ w1.tm.rem .heartbeat = w.tm.rem .heartbeat := by
    cases rx with
    | none =>
      have e : (stepOpC (s.ctx k) (s.cb k) (.process none) w).2 = (Core.process (s.ctx k) none w).2 :=
        AvrProps.calm_op (s.stack k) (.process none) w fun _ h => .inr (by cases h; rfl)
      rw [active_parts ha] at e
      exact ⟨_, [], e, (pre_out (s.ctx k) none w).trans (List.append_nil _).symm, by simp, pre_same _ _ _ .ok (by decide), pre_same _ _ _ .hb (by decide), pre_same _ _ _ (.tm .heartbeat) (by decide)⟩
    | some m =>
      obtain ⟨tp, ub, t, h1, h2⟩ := AvrProps.cycle (sz := s.sz) (e := s.env k) (s.stack k) m w ha
      have hh : ∃ t0, (AvrProps.handled (Avr.ctx s.sz (s.env k)) m w).out = w.out ++ t0 ∧ (∀ o ∈ t0, NoBeat o) ∧
          Comp.ok.same w (AvrProps.handled (Avr.ctx s.sz (s.env k)) m w) ∧ Comp.hb.same w (AvrProps.handled (Avr.ctx s.sz (s.env k)) m w) ∧
          (Comp.tm .heartbeat).same w (AvrProps.handled (Avr.ctx s.sz (s.env k)) m w) := by
        have p1 := pre_same (s.ctx k) (some m) w .ok (by decide)
        have p2 := pre_same (s.ctx k) (some m) w .hb (by decide)
        have p3 := pre_same (s.ctx k) (some m) w (.tm .heartbeat) (by decide)
        unfold AvrProps.handled
        split
        · obtain ⟨t0, q1, q2⟩ := Calls.handler0 (c := s.ctx k) m (preProcess (s.ctx k) (some m) w).2
          rw [pre_out] at q1
          exact ⟨t0, q1, q2, Comp.same_trans p1 (handler_same (c := s.ctx k) (m := m) _ .ok [] (by decide) (by simp)),
            Comp.same_trans p2 (handler_same (c := s.ctx k) (m := m) _ .hb [] (by decide) (by simp)),
            Comp.same_trans p3 (handler_same (c := s.ctx k) (m := m) _ (.tm .heartbeat) [] (by decide) (by simp))⟩
        · refine ⟨[.event m], ?_, ?_, p1, p2, p3⟩
          · show (preProcess (s.ctx k) (some m) w).2.out ++ [.event m] = _
            rw [pre_out]
          · intro o ho
            rw [List.mem_singleton.1 ho]
            rfl
      obtain ⟨t0, q1, q2, q3, q4, q5⟩ := hh
      refine ⟨_, t0 ++ t, h1, ?_, ?_, q3, q4, q5⟩
      · show (AvrProps.handled (Avr.ctx s.sz (s.env k)) m w).out ++ t = _
        rw [q1, List.append_assoc]
      · intro o ho
        rcases List.mem_append.1 ho with h | h
        · exact q2 o h
        · exact reacts_quiet h2 o h
  obtain ⟨w1, t1, e, h1, h2, h3, h4, h5⟩ := key
  obtain ⟨t, hp, hr⟩ := tail_pulse (s := s) k (w := w1) (by rw [h3]; exact hok)
  have hd : Due (s.ctx k) w1 ↔ w.tm.rem .heartbeat = 0 := by
    rw [due_avr (by rw [h3]; exact hok) (by rw [h4]; exact hon), h5]
  rw [e]
  refine ⟨t1 ++ t, ⟨?_, hp.ok.trans h3, hp.on.trans h4, fun h => ?_, fun h => ?_⟩, fun h => ?_⟩
  · rw [hp.out, h1, List.append_assoc]
  · obtain ⟨b1, ok, b2⟩ := hp.beat (hd.mpr h)
    exact ⟨b1, ok, by rw [List.filter_append, filter_none h2, b2]; rfl⟩
  · obtain ⟨b1, b2⟩ := hp.none fun x => h (hd.mp x)
    exact ⟨by rw [← h5]; exact b1, by rw [List.filter_append, filter_none h2, b2]; rfl⟩
  · rw [hr fun x => h (hd.mp x), h5]

/-- All other calls of the main loop but the passing of time. -/
theorem other_pulse (k : Nat) {op : Op} (hp : op = .startNodeSegmentInit ∨ ∃ rx, op = .process rx) {w : W} (hna : ∀ rx, op = .process rx → w.v.st ≠ .active) :
    ∃ t, Pulse (s.ctx k) w (stepOpC (s.ctx k) (s.cb k) op w).2 t False := by
  have e : (stepOpC (s.ctx k) (s.cb k) op w).2 = (stepOp (s.ctx k) op w).2 :=
    AvrProps.calm_op (s.stack k) op w fun rx h => .inl (hna rx h)
  rw [e]
  rcases hp with rfl | ⟨rx, rfl⟩
  · have hs := op_steps (s.ctx k) .startNodeSegmentInit (fun _ h => (by cases h)) w
    obtain ⟨t, ht, hn⟩ := Calls.beatless (c := s.ctx k) (m := stepOp (s.ctx k) .startNodeSegmentInit) (fun w => op_steps (s.ctx k) .startNodeSegmentInit (fun _ h => (by cases h)) w) (by decide) w
    exact ⟨t, ht, hs.same .ok (by decide), hs.same .hb (by decide), fun h => h.elim, fun _ => ⟨.inl (hs.same (.tm .heartbeat) (by decide)), filter_none hn⟩⟩
  · have hst : (preProcess (s.ctx k) rx w).2.v.st ≠ .active := fun h => hna rx rfl ((pre_same (s.ctx k) rx w .st (by decide)).symm.trans h)
    obtain ⟨t, ht, hn⟩ := Calls.dispatch0 (c := s.ctx k) (rx := (preProcess (s.ctx k) rx w).1) hst
    rw [show (Core.dispatch (s.ctx k) (preProcess (s.ctx k) rx w).1 (preProcess (s.ctx k) rx w).2).2 = (Core.process (s.ctx k) rx w).2 by rw [process_split], pre_out] at ht
    have hb := HbM.process (c := s.ctx k) rx w
    have h1 := pre_same (s.ctx k) rx w .hb (by decide)
    have h2 := (process_state (s.ctx k) rx w).same .hb (by cases w.v.st <;> decide)
    exact ⟨t, ht, hb.1, h2.trans h1, fun h => h.elim, fun _ => ⟨hb.2, filter_none hn⟩⟩

/-! ### Moves -/

/-- The heartbeat is switched on, and its timer was not started with more than its period. -/
structure Beats (y : State) : Prop where
  ok : y.fw.w.tm.ok .heartbeat = true
  on : y.fw.w.v.hbOn = true
  le : (y.fw.w.tm.rem .heartbeat).toNat ≤ 30000

theorem beats_boot (past : List Out) (n : Nat) (ps : Nat → U8) (ctl : CanDrv.State) : Beats (boot s past n ps ctl) := by
  obtain ⟨w1, h1, h2⟩ := init_steps (s.ctx n) allOk (powerUp ps)
  have e1 := h2.same (.tm .heartbeat) (by decide)
  have e3 : w1.tm.rem .heartbeat = 0 := by rw [h1.tm]; simp
  have hb := Time.C39_switch_partial (s.ctx n) allOk ps []
  refine ⟨congrFun (init_ok (s.ctx n) allOk (powerUp ps)) .heartbeat, hb, ?_⟩
  show ((Core.init (s.ctx n) allOk (powerUp ps)).2.tm.rem .heartbeat).toNat ≤ 30000
  have : (Core.init (s.ctx n) allOk (powerUp ps)).2.tm.rem .heartbeat = 0 := e1.trans e3
  rw [this]
  decide

theorem period_avr (k : Nat) : (s.ctx k).hbPeriod.toNat = 30000 := rfl

/-- Periods of 250 ms until the timer of the heartbeat has elapsed. -/
def hbLeft (y : State) : Nat := ((y.fw.w.tm.rem .heartbeat).toNat + 249) / 250

/-- What a move does to the heartbeat, in the same life. -/
structure Moved (s : Surr) (y y1 : State) (mv : Move) (t : List Out) : Prop where
  out : y1.fw.w.out = y.fw.w.out ++ t
  inv : Beats y1
  frame : ∀ o ∈ t, isHeartbeat o = true → ∃ m ok, o = .tx m ok ∧ Beat s y1 m
  count : 30000 * t.countP isHeartbeat + (y.fw.w.tm.rem .heartbeat).toNat + rest y ≤ (y1.fw.w.tm.rem .heartbeat).toNat + rest y1 + ticks [mv]
  late : hbLeft y ≠ 0 → y.fw.w.v.st = .active → ∀ l, InTime y (mv :: l) →
    (if hbLeft y = 0 then 0 else 250 * (hbLeft y - 1) + rest y) = ticks [mv] + (if hbLeft y1 = 0 then 0 else 250 * (hbLeft y1 - 1) + rest y1)
  over : hbLeft y = 0 → y.fw.w.v.st = .active → t.countP isHeartbeat = 0 → hbLeft y1 = 0 ∧ (mv = .step → dist y.pc = dist y1.pc + 1) ∧ (mv ≠ .step → y1.pc = y.pc)

theorem left_zero {y : State} : hbLeft y = 0 ↔ y.fw.w.tm.rem .heartbeat = 0 := by
  unfold hbLeft
  rw [← BitVec.toNat_inj]
  show _ ↔ _ = 0
  omega

/-- A move which does not concern the framework. -/
theorem moved_quiet {y y1 : State} {mv : Move} (h : Beats y) (e : y1.fw.w = y.fw.w) (hc : rest y ≤ rest y1 + ticks [mv])
    (ht : ∀ l, InTime y (mv :: l) → rest y = ticks [mv] + rest y1) (hd : (mv = .step → dist y.pc = dist y1.pc + 1) ∧ (mv ≠ .step → y1.pc = y.pc)) : Moved s y y1 mv [] := by
  have el : hbLeft y1 = hbLeft y := by unfold hbLeft; rw [e]
  refine ⟨by rw [e]; simp, ⟨by rw [e]; exact h.ok, by rw [e]; exact h.on, by rw [e]; exact h.le⟩, by simp, ?_, ?_, ?_⟩
  · rw [e]
    simp only [List.countP_nil]
    omega
  · intro h0 _ l hl
    have := ht l hl
    rw [if_neg h0, el, if_neg h0]
    omega
  · intro h0 _ _
    exact ⟨el.trans h0, hd⟩

theorem moved_does {y y1 : State} {mv : Move} (hi : Inv s y) (h : Beats y) (hd : Does s a y mv y1) (he : y1.fw.life = y.fw.life) : ∃ t, Moved s y y1 mv t := by
  have hn : ∀ {t : List Out}, t.filter isHeartbeat = [] → t.countP isHeartbeat = 0 := fun {t} h => by rw [List.countP_eq_length_filter, h]; rfl
  have hnf : ∀ {t : List Out} {y1 : State}, t.filter isHeartbeat = [] → ∀ o ∈ t, isHeartbeat o = true → ∃ m ok, o = .tx m ok ∧ Beat s y1 m :=
    fun {t _} h o ho hb => by have := List.mem_filter.mpr ⟨ho, hb⟩; rw [h] at this; cases this
  -- a call which sends no heartbeat and does not stop the timer
  have other : ∀ {w1 : W} {y1 : State} {t : List Out}, y1.fw.w = w1 → rest y1 = rest y → mv = .step → (hbLeft y = 0 → y.fw.w.v.st = .active → dist y.pc = dist y1.pc + 1) → Pulse (s.ctx y.fw.life) y.fw.w w1 t False →
      (y.fw.w.v.st = .active → w1.tm.rem .heartbeat = y.fw.w.tm.rem .heartbeat) → Moved s y y1 mv t := by
    intro w1 y1 t ew er hmv hdist hp hsame
    obtain ⟨p1, p2⟩ := hp.none id
    have hle := h.le
    have hk := period_avr (s := s) y.fw.life
    have hrem : (y.fw.w.tm.rem .heartbeat).toNat ≤ (w1.tm.rem .heartbeat).toNat ∧ (w1.tm.rem .heartbeat).toNat ≤ 30000 := by
      rcases p1 with e | e <;> rw [e]
      · exact ⟨Nat.le_refl _, hle⟩
      · rw [hk]; exact ⟨hle, Nat.le_refl _⟩
    subst hmv
    refine ⟨by rw [ew]; exact hp.out, ⟨by rw [ew, hp.ok]; exact h.ok, by rw [ew, hp.on]; exact h.on, by rw [ew]; exact hrem.2⟩, hnf p2, ?_, ?_, ?_⟩
    · rw [hn p2, ew, er]
      omega
    · intro h0 ha l _
      have el : hbLeft y1 = hbLeft y := by unfold hbLeft; rw [ew, hsame ha]
      rw [el, er]
      show _ = 0 + _
      omega
    · intro h0 ha _
      have el : hbLeft y1 = hbLeft y := by unfold hbLeft; rw [ew, hsame ha]
      exact ⟨el.trans h0, fun _ => hdist h0 ha, fun h => absurd rfl h⟩
  cases hd with
  | tick b =>
    have e : rest (timerCb b y) = rest y - 1 := (sw_tick hi.sw).2
    refine ⟨[], moved_quiet h rfl (by rw [e]; show _ ≤ _ + 1; omega) ?_ ⟨fun h => (by cases h), fun _ => rfl⟩⟩
    rintro l ⟨-, h2⟩
    have hpos : 0 < need y.pc := by cases y.pc <;> decide
    have hr : rest y ≠ 0 := fun h => by have := h2 h; simp only [stepsNow] at this; omega
    rw [e]
    show _ = 1 + _
    omega
  | power =>
    have : (reboot s y).fw.life = y.fw.life + 1 := rfl
    omega
  | reset m ctl hpc hm hr =>
    have : (Avr.call s (.process m) y.fw).life + 1 = y.fw.life := he
    have : (Avr.call s (.process m) y.fw).life = y.fw.life := rfl
    omega
  | rx b x hc => exact ⟨[], moved_quiet h rfl (Nat.le_refl _) (fun _ _ => (Nat.zero_add _).symm) ⟨fun h => (by cases h), fun _ => rfl⟩⟩
  | tx x hc => exact ⟨[], moved_quiet h rfl (Nat.le_refl _) (fun _ _ => (Nat.zero_add _).symm) ⟨fun h => (by cases h), fun _ => rfl⟩⟩
  | quiet hpc hp => exact ⟨[], moved_quiet h rfl (Nat.le_refl _) (fun _ _ => (Nat.zero_add _).symm) ⟨fun _ => by rw [hpc]; rfl, fun h => absurd rfl h⟩⟩
  | remember hpc => exact ⟨[], moved_quiet h rfl (Nat.le_refl _) (fun _ _ => (Nat.zero_add _).symm) ⟨fun _ => by rw [hpc]; rfl, fun h => absurd rfl h⟩⟩
  | notDue hpc hz => exact ⟨[], moved_quiet h rfl (Nat.le_refl _) (fun _ _ => (Nat.zero_add _).symm) ⟨fun _ => by rw [hpc]; rfl, fun h => absurd rfl h⟩⟩
  | segInit x hpc hp hl hc =>
    obtain ⟨t, ht⟩ := other_pulse (s := s) y.fw.life (op := .startNodeSegmentInit) (.inl rfl) (w := y.fw.w) (fun _ h => (by cases h))
    refine ⟨t, other rfl rfl rfl (fun _ _ => by rw [hpc]; rfl) ht fun _ => ?_⟩
    have e : (stepOpC (s.ctx y.fw.life) (s.cb y.fw.life) .startNodeSegmentInit y.fw.w).2 = (stepOp (s.ctx y.fw.life) .startNodeSegmentInit y.fw.w).2 :=
      AvrProps.calm_op (s.stack y.fw.life) _ _ fun rx h => (by cases h)
    show (stepOpC (s.ctx y.fw.life) (s.cb y.fw.life) .startNodeSegmentInit y.fw.w).2.tm.rem .heartbeat = _
    rw [e]
    exact op_same (s.ctx y.fw.life) .startNodeSegmentInit (fun _ h => (by cases h)) y.fw.w (.tm .heartbeat) (by decide)
  | due x sw hpc hz hsw hc =>
    obtain ⟨k1, k2, k3, k4, -, -, -⟩ := AvrProps.tick_call s 250 y.fw
    have k7 : ((Avr.call s (.tick 250) y.fw).w.tm.rem .heartbeat).toNat = (y.fw.w.tm.rem .heartbeat).toNat - 250 := tick_rem (s.ctx y.fw.life) 250 y.fw.w .heartbeat
    have e : (later s y.fw).w = (Avr.call s (.tick 250) y.fw).w := by rw [later_w, call_w]
    rw [← e] at k1 k2 k3 k4 k7
    have hle := h.le
    refine ⟨[], (by rw [k3]; simp), ⟨by rw [k4]; exact h.ok, by rw [k1]; exact h.on, by rw [k7]; omega⟩, by simp, ?_, ?_, ?_⟩
    · rw [k7, hz]
      show 30000 * 0 + _ + 0 ≤ _ + sw[1].value.toNat + 0
      rw [hsw]
      omega
    · intro h0 _ l _
      have el : hbLeft { y with fw := later s y.fw, x, sw, clk := Clock.process (MainLoop.PERIOD.setWidth 16) y.clk, pc := .process } = hbLeft y - 1 := by
        unfold hbLeft
        dsimp only
        rw [k7]
        omega
      have er : rest { y with fw := later s y.fw, x, sw, clk := Clock.process (MainLoop.PERIOD.setWidth 16) y.clk, pc := .process } = 250 := hsw
      rw [if_neg h0, el, er, hz]
      show _ = 0 + _
      split <;> omega
    · intro h0 _ _
      refine ⟨?_, fun _ => by rw [hpc]; rfl, fun h => absurd rfl h⟩
      unfold hbLeft at h0 ⊢
      dsimp only
      rw [k7]
      omega
  | cycle m x hpc hm hr hc =>
    by_cases ha : y.fw.w.v.st = .active
    · obtain ⟨t, ht, hsame⟩ := active_pulse (s := s) y.fw.life m ha h.ok h.on
      by_cases h0 : y.fw.w.tm.rem .heartbeat = 0
      · obtain ⟨b1, ok, b2⟩ := ht.beat h0
        have hcount : t.countP isHeartbeat = 1 := by rw [List.countP_eq_length_filter, b2]; rfl
        have hk := period_avr (s := s) y.fw.life
        refine ⟨t, ht.out, ⟨?_, ?_, ?_⟩, ?_, ?_, fun h1 => absurd (left_zero.mpr h0) h1, fun _ _ hc => ?_⟩
        · show (Avr.call s (.process m) y.fw).w.tm.ok .heartbeat = true
          rw [call_w, ht.ok]
          exact h.ok
        · show (Avr.call s (.process m) y.fw).w.v.hbOn = true
          rw [call_w, ht.on]
          exact h.on
        · show ((Avr.call s (.process m) y.fw).w.tm.rem .heartbeat).toNat ≤ 30000
          rw [call_w, b1, hk]
          exact Nat.le_refl _
        · intro o ho hb
          have := List.mem_filter.mpr ⟨ho, hb⟩
          rw [b2] at this
          rw [List.mem_singleton.1 this]
          exact ⟨_, ok, rfl, rfl, rfl, rfl, rfl, rfl, rfl⟩
        · show _ ≤ ((Avr.call s (.process m) y.fw).w.tm.rem .heartbeat).toNat + rest y + 0
          rw [call_w, b1, hk, hcount, h0]
          show 30000 * 1 + 0 + _ ≤ _
          omega
        · rw [hcount] at hc
          cases hc
      · obtain ⟨b1, b2⟩ := ht.none h0
        exact ⟨t, other rfl rfl rfl (fun h _ => absurd (left_zero.mp h) h0) ⟨ht.out, ht.ok, ht.on, fun h => h.elim, fun _ => ⟨b1, b2⟩⟩ fun _ => hsame h0⟩
    · obtain ⟨t, ht⟩ := other_pulse (s := s) y.fw.life (op := .process m) (.inr ⟨m, rfl⟩) (w := y.fw.w) (fun _ _ => ha)
      exact ⟨t, other rfl rfl rfl (fun _ h => absurd h ha) ht fun h => absurd h ha⟩

/-! ### Histories -/

theorem same_life {mv : Move} {l : List Move} {y y1 y' : State} (h1 : Inv s y1) (hl : ∀ mv ∈ l, AvrSys.Ok mv) (hd : Does s a y mv y1) (hr : run s a l y1 = .ok y') (he : y'.fw.life = y.fw.life) :
    y1.fw.life = y.fw.life := by
  have := (run_lives l h1 hl hr).1
  rcases does_life hd with e | ⟨e, -⟩ <;> omega

theorem run_beats : ∀ (l : List Move) {y y' : State}, Inv s y → Beats y → (∀ mv ∈ l, AvrSys.Ok mv) → run s a l y = .ok y' → Beats y'
  | [], y, y', _, h, _, hr => by cases hr; exact h
  | mv :: l, y, y', hi, h, hl, hr => by
    have hl' : ∀ mv ∈ l, AvrSys.Ok mv := fun mv h => hl mv (List.mem_cons_of_mem _ h)
    obtain ⟨y1, hd, h1, hr'⟩ := run_does hi hl' (hl _ (List.mem_cons_self ..)) hr
    refine run_beats l h1 ?_ hl' hr'
    by_cases he : y1.fw.life = y.fw.life
    · obtain ⟨t, ht⟩ := moved_does hi h hd he
      exact ht.inv
    · cases hd with
      | power => exact beats_boot ..
      | reset m ctl hpc hm hr => exact beats_boot ..
      | due x sw hpc hz hsw hc => exact absurd (later_life y.fw) he
      | _ => exact absurd rfl he

/-- The number of heartbeats in a piece of history. -/
theorem run_count : ∀ (l : List Move) {y y' : State}, Inv s y → Beats y → (∀ mv ∈ l, AvrSys.Ok mv) → run s a l y = .ok y' → y'.fw.life = y.fw.life →
    ∃ t, y'.fw.w.out = y.fw.w.out ++ t ∧ 30000 * t.countP isHeartbeat + (y.fw.w.tm.rem .heartbeat).toNat + rest y ≤ (y'.fw.w.tm.rem .heartbeat).toNat + rest y' + ticks l
  | [], y, y', _, _, _, hr, _ => by cases hr; exact ⟨[], by simp, by simp only [List.countP_nil, ticks]; omega⟩
  | mv :: l, y, y', hi, h, hl, hr, he => by
    have hl' : ∀ mv ∈ l, AvrSys.Ok mv := fun mv h => hl mv (List.mem_cons_of_mem _ h)
    obtain ⟨y1, hd, h1, hr'⟩ := run_does hi hl' (hl _ (List.mem_cons_self ..)) hr
    have he1 := same_life h1 hl' hd hr' he
    obtain ⟨t, ht⟩ := moved_does hi h hd he1
    obtain ⟨t', i1, i2⟩ := run_count l h1 ht.inv hl' hr' (he.trans he1.symm)
    have hsum : ticks (mv :: l) = ticks [mv] + ticks l := ticks_append [mv] l
    have := ht.count
    refine ⟨t ++ t', by rw [i1, ht.out, List.append_assoc], ?_⟩
    rw [List.countP_append]
    omega

/-- A piece of history in which nothing of a heartbeat is sent. -/
def Silent (s : Surr) (a : Nat → Around) (l : List Move) (y : State) : Prop :=
  ∀ l1 mv l2 y1 y2, l = l1 ++ mv :: l2 → run s a l1 y = .ok y1 → run s a [mv] y1 = .ok y2 → ∀ t, y2.fw.w.out = y1.fw.w.out ++ t → t.countP isHeartbeat = 0

theorem stays_head {mv : Move} {l : List Move} {y y1 : State} (h : Stays s a (mv :: l) y) (hm : run s a [mv] y = .ok y1) : y.fw.w.v.st = .active ∧ Stays s a l y1 := by
  refine ⟨h [] _ _ rfl rfl, fun l1 l2 y2 e hr => h (mv :: l1) l2 y2 (by rw [e]; rfl) ?_⟩
  rw [show mv :: l1 = [mv] ++ l1 from rfl, run_append, hm]
  exact hr

theorem Silent.head {mv : Move} {l : List Move} {y y1 : State} (h : Silent s a (mv :: l) y) (hm : run s a [mv] y = .ok y1) :
    (∀ t, y1.fw.w.out = y.fw.w.out ++ t → t.countP isHeartbeat = 0) ∧ Silent s a l y1 := by
  refine ⟨h [] mv l y y1 rfl rfl hm, fun l1 mv' l2 y2 y3 e hr => h (mv :: l1) mv' l2 y2 y3 (by rw [e]; rfl) ?_⟩
  rw [show mv :: l1 = [mv] ++ l1 from rfl, run_append, hm]
  exact hr

theorem head_run {mv : Move} {l : List Move} {y y' : State} (hi : Inv s y) (hm : AvrSys.Ok mv) (hr : run s a (mv :: l) y = .ok y') :
    ∃ y1, run s a [mv] y = .ok y1 ∧ Does s a y mv y1 ∧ Inv s y1 ∧ run s a l y1 = .ok y' := by
  rw [show mv :: l = [mv] ++ l from rfl, run_append] at hr
  cases h : run s a [mv] y with
  | ok y1 =>
    rw [h] at hr
    obtain ⟨y2, hd, h2, hr2⟩ := run_does (l := []) hi (by simp) hm h
    cases hr2
    exact ⟨y1, rfl, hd, h2, hr⟩
  | ub => rw [h] at hr; cases hr
  | impossible => rw [h] at hr; cases hr

/-- A heartbeat which is due is sent in the next cycle. -/
theorem beat_over : ∀ (l : List Move) {y y' : State}, Inv s y → Beats y → (∀ mv ∈ l, AvrSys.Ok mv) → run s a l y = .ok y' → y'.fw.life = y.fw.life → Stays s a l y → Silent s a l y →
    hbLeft y = 0 → steps l < dist y.pc
  | [], y, y', _, _, _, _, _, _, _, _ => by cases y.pc <;> decide
  | mv :: l, y, y', hi, h, hl, hr, he, hst, hsi, h0 => by
    have hl' : ∀ mv ∈ l, AvrSys.Ok mv := fun mv h => hl mv (List.mem_cons_of_mem _ h)
    obtain ⟨y1, hm, hd, h1, hr'⟩ := head_run hi (hl _ (List.mem_cons_self ..)) hr
    have he1 := same_life h1 hl' hd hr' he
    obtain ⟨t, ht⟩ := moved_does hi h hd he1
    obtain ⟨ha, hst'⟩ := stays_head hst hm
    obtain ⟨hc, hsi'⟩ := hsi.head hm
    obtain ⟨h3, h4, h5⟩ := ht.over h0 ha (hc t ht.out)
    have := beat_over l h1 ht.inv hl' hr' (he.trans he1.symm) hst' hsi' h3
    by_cases hs : mv = .step
    · subst hs
      simp only [steps, h4 rfl]
      omega
    · rw [h5 hs] at this
      cases mv <;> first | exact absurd rfl hs | exact this

/-- The time without a heartbeat. -/
theorem beat_late : ∀ (l : List Move) {y y' : State}, Inv s y → Beats y → (∀ mv ∈ l, AvrSys.Ok mv) → run s a l y = .ok y' → y'.fw.life = y.fw.life → Stays s a l y → Silent s a l y → InTime y l →
    ticks l ≤ if hbLeft y = 0 then 0 else 250 * (hbLeft y - 1) + rest y
  | [], y, y', _, _, _, _, _, _, _, _ => Nat.zero_le _
  | mv :: l, y, y', hi, h, hl, hr, he, hst, hsi, ht => by
    have hl' : ∀ mv ∈ l, AvrSys.Ok mv := fun mv h => hl mv (List.mem_cons_of_mem _ h)
    have hmv := hl _ (List.mem_cons_self ..)
    obtain ⟨y1, hm, hd, h1, hr'⟩ := head_run hi hmv hr
    have he1 := same_life h1 hl' hd hr' he
    obtain ⟨t, hmo⟩ := moved_does hi h hd he1
    obtain ⟨ha, hst'⟩ := stays_head hst hm
    obtain ⟨hc, hsi'⟩ := hsi.head hm
    obtain ⟨lc, lb, evs, k, -, -, p3⟩ := does_parts hi hmv hd he1
    have hsum : ticks (mv :: l) = ticks [mv] + ticks l := ticks_append [mv] l
    have ih := beat_late l h1 hmo.inv hl' hr' (he.trans he1.symm) hst' hsi' (p3 l ht).1
    by_cases h0 : hbLeft y = 0
    · have hov := beat_over (mv :: l) hi h hl hr he hst hsi h0
      have h4 : dist y.pc ≤ 4 := by cases y.pc <;> decide
      rw [if_pos (hmo.over h0 ha (hc t hmo.out)).1] at ih
      have : ticks [mv] = 0 := by
        cases mv with
        | tick b =>
          have := ht.1.1
          have hle := stepsNow_le l
          simp only [steps] at hov
          omega
        | _ => rfl
      omega
    · rw [hmo.late h0 ha l ht]
      omega

section
variable {past : List Out} {n : Nat} {ps : Nat → U8} {ctl : CanDrv.State} {l l' : List Move} (hl : ∀ mv ∈ l ++ l', AvrSys.Ok mv) {y y' : State}
  (hr : run s a l (boot s past n ps ctl) = .ok y) (hr' : run s a l' y = .ok y') (hn : y'.fw.life = n)
include hl hr hr' hn

/-- C119: the heartbeats of the AVR example are not sent too often: with `k` heartbeats in a piece of a history without a restart, 30 s have passed between each two of them but for 250 ms in all. -/
theorem C119_most : ∃ t, y'.fw.w.out = y.fw.w.out ++ t ∧ 30000 * (t.countP isHeartbeat - 1) ≤ ticks l' + 250 := by
  have h1 := lives_eq hl hr hr' hn
  have hl1 : ∀ mv ∈ l, AvrSys.Ok mv := fun mv h => hl mv (List.mem_append_left _ h)
  have hl2 : ∀ mv ∈ l', AvrSys.Ok mv := fun mv h => hl mv (List.mem_append_right _ h)
  have hi := inv_of (boot_inv past n ps ctl) hl1 hr
  have hi' := inv_of hi hl2 hr'
  have hb := run_beats l (boot_inv past n ps ctl) (beats_boot ..) hl1 hr
  have hb' := (run_beats l' hi hb hl2 hr').le
  have hle' : rest y' ≤ 250 := hi'.sw.le
  obtain ⟨t, ht, hc⟩ := run_count l' hi hb hl2 hr' (hn.trans h1.symm)
  exact ⟨t, ht, by omega⟩

/-- C119: an active AVR example whose main loop runs once in each millisecond sends a heartbeat in any 30001 ms. -/
theorem C119_least (hf : Fast (l ++ l')) (hst : Stays s a l' y) (ht : 30000 < ticks l') :
    ∃ l1 mv l2 y1 y2 t m ok, l' = l1 ++ mv :: l2 ∧ run s a l1 y = .ok y1 ∧ run s a [mv] y1 = .ok y2 ∧ y2.fw.w.out = y1.fw.w.out ++ t ∧ .tx m ok ∈ t ∧ Beat s y2 m := by
  have h1 := lives_eq hl hr hr' hn
  have hl1 : ∀ mv ∈ l, AvrSys.Ok mv := fun mv h => hl mv (List.mem_append_left _ h)
  have hl2 : ∀ mv ∈ l', AvrSys.Ok mv := fun mv h => hl mv (List.mem_append_right _ h)
  have hi := inv_of (boot_inv past n ps ctl) hl1 hr
  have hb := run_beats l (boot_inv past n ps ctl) (beats_boot ..) hl1 hr
  have hint := run_inTime l l' (boot_inv past n ps ctl) hl1 hr h1 ⟨hf, fun h => (by rw [rest_boot] at h; cases h)⟩
  have hns : ¬ Silent s a l' y := by
    intro hs
    have := beat_late l' hi hb hl2 hr' (hn.trans h1.symm) hst hs hint
    have hle : rest y ≤ 250 := hi.sw.le
    have hle2 : hbLeft y ≤ 120 := by
      have := hb.le
      unfold hbLeft
      omega
    split at this <;> omega
  unfold Silent at hns
  simp only [Classical.not_forall] at hns
  obtain ⟨p1, mv, p2, y1, y2, e, r1, r2, t, ho, hc⟩ := hns
  have hp1 : ∀ mv ∈ p1, AvrSys.Ok mv := fun x hx => hl2 x (by rw [e]; exact List.mem_append_left _ hx)
  have hp2 : ∀ mv ∈ p2, AvrSys.Ok mv := fun x hx => hl2 x (by rw [e]; exact List.mem_append_right _ (List.mem_cons_of_mem _ hx))
  have hm : AvrSys.Ok mv := hl2 mv (by rw [e]; exact List.mem_append_right _ (List.mem_cons_self ..))
  have i1 := inv_of hi hp1 r1
  have b1 := run_beats p1 hi hb hp1 r1
  obtain ⟨y3, hd, i2, r3⟩ := run_does (l := []) i1 (by simp) hm r2
  cases r3
  have hlife : y2.fw.life = y1.fw.life := by
    have r4 : run s a p2 y2 = .ok y' := by
      have := hr'
      rw [e, run_append, r1] at this
      have this : run s a (mv :: p2) y1 = .ok y' := this
      rw [show mv :: p2 = [mv] ++ p2 from rfl, run_append, r2] at this
      exact this
    have q1 := (run_lives p1 hi hp1 r1).1
    have q2 := (run_lives p2 i2 hp2 r4).1
    rcases does_life hd with e | ⟨e, -⟩ <;> omega
  obtain ⟨t', hmo⟩ := moved_does i1 b1 hd hlife
  cases List.append_cancel_left (ho.symm.trans hmo.out)
  have hpos : 0 < t.countP isHeartbeat := Nat.pos_of_ne_zero hc
  obtain ⟨o, ho1, ho2⟩ := List.countP_pos_iff.mp hpos
  obtain ⟨m, ok, rfl, hbt⟩ := hmo.frame o ho1 ho2
  exact ⟨p1, mv, p2, y1, y2, t, m, ok, e, r1, r2, ho, ho1, hbt⟩

end

/-- C119: every heartbeat which is sent, in any step, carries the nickname, the zone and the sub-zone of the node. -/
theorem C119_frame {past : List Out} {n : Nat} {ps : Nat → U8} {ctl : CanDrv.State} {l : List Move} {mv : Move} (hl : ∀ mv ∈ l, AvrSys.Ok mv) (hm : AvrSys.Ok mv) {y y' : State}
    (hr : run s a l (boot s past n ps ctl) = .ok y) (hr' : run s a [mv] y = .ok y') (hn : y'.fw.life = y.fw.life) :
    ∃ t, y'.fw.w.out = y.fw.w.out ++ t ∧ ∀ o ∈ t, isHeartbeat o = true → ∃ m ok, o = .tx m ok ∧ Beat s y' m := by
  have hi := inv_of (boot_inv past n ps ctl) hl hr
  obtain ⟨y1, hd, i1, r1⟩ := run_does (l := []) hi (by simp) hm hr'
  cases r1
  obtain ⟨t, ht⟩ := moved_does hi (run_beats l (boot_inv past n ps ctl) (beats_boot ..) hl hr) hd hn
  exact ⟨t, ht.out, ht.frame⟩

/-! ### Left alone -/

/-- No frames of other nodes, nobody presses the button, and the power stays on. -/
def Lone (mv : Move) : Prop := AvrSys.Alone mv ∧ ∀ b, mv ≠ .rx b

/-- An active node which has delivered all frames. -/
structure Quiet (y : State) : Prop where
  st : y.fw.w.v.st = .active
  up : y.pressed = false
  all : y.x.2.stored.length = y.heard.length

theorem quiet_does {y y1 : State} {mv : Move} (hi : Inv s y) (h : Quiet y) (hm : Lone mv) (hd : Does s a y mv y1) : Quiet y1 ∧ y1.fw.life = y.fw.life := by
  cases hd with
  | tick b =>
    have hb : b = false := hm.1
    subst hb
    refine ⟨⟨h.st, ?_, h.all⟩, rfl⟩
    simp only [timerCb, Button.isrAvr, if_true]
  | power => exact absurd hm.1 id
  | rx b x hc => exact absurd rfl (hm.2 b)
  | tx x hc =>
    simp only [CanNode.move] at hc
    cases hc
    exact ⟨⟨h.st, h.up, h.all⟩, rfl⟩
  | segInit x hpc hp hl hc => rw [h.up] at hp; cases hp
  | quiet hpc hp => exact ⟨⟨h.st, h.up, h.all⟩, rfl⟩
  | remember hpc => exact ⟨⟨h.st, h.up, h.all⟩, rfl⟩
  | notDue hpc hz => exact ⟨⟨h.st, h.up, h.all⟩, rfl⟩
  | due x sw hpc hz hsw hc =>
    obtain ⟨k1, -⟩ := AvrProps.tick_call s 250 y.fw
    have e : (later s y.fw).w = (Avr.call s (.tick 250) y.fw).w := by rw [later_w, call_w]
    rw [← e] at k1
    refine ⟨⟨by rw [k1]; exact h.st, h.up, ?_⟩, later_life y.fw⟩
    rcases CanNode.callFw_good (AvrProps.good s.sz (s.env y.fw.life)) (AvrProps.cb_ok (s.stack y.fw.life)) (a y.fw.life) (op := .tick 250) trivial hi.good with e | ⟨n', e, -, -, -, e4, -⟩
    · rw [show CanNode.move (s.ctx y.fw.life) (s.cb y.fw.life) (a y.fw.life) (node y) (.call (.tick 250)) = _ from e] at hc; cases hc
    · rw [show CanNode.move (s.ctx y.fw.life) (s.cb y.fw.life) (a y.fw.life) (node y) (.call (.tick 250)) = _ from e] at hc
      cases hc
      show x.2.stored.length = y.heard.length
      exact (congrArg List.length e4).trans h.all
  | reset m ctl hpc hm' hr => exact absurd (AvrProps.reset_last s m y.fw (ok_small hm') hr).1 (by rw [h.st]; decide)
  | cycle m x hpc hm' hr hc =>
    have hm0 : m = none ∧ x.2.stored = y.x.2.stored := by
      rcases CanNode.cycle_good (AvrProps.good s.sz (s.env y.fw.life)) (AvrProps.cb_ok (s.stack y.fw.life)) (a y.fw.life) hi.good with e | ⟨n', m', e, e2, -, e4, e5, e6, -⟩
      · rw [show CanNode.move (s.ctx y.fw.life) (s.cb y.fw.life) (a y.fw.life) (node y) .cycle = _ from e] at hc; cases hc
      · rw [show CanNode.move (s.ctx y.fw.life) (s.cb y.fw.life) (a y.fw.life) (node y) .cycle = _ from e] at hc
        cases hc
        have h1 : (y.heard ++ m.toList).length = x.2.got.length := e2.len
        have h2 : x.2.stored = y.x.2.stored := e5
        have h3 : x.2.stored.length = x.2.got.length := by
          have := congrArg List.length e6
          simpa using this
        have h4 := h.all
        rw [← h2, h3, ← h1] at h4
        refine ⟨?_, h2⟩
        cases m with
        | none => rfl
        | some m => simp at h4
    obtain ⟨rfl, hx⟩ := hm0
    refine ⟨⟨?_, h.up, ?_⟩, rfl⟩
    · have e : (Avr.call s (.process none) y.fw).w = (Core.process (s.ctx y.fw.life) none y.fw.w).2 :=
        AvrProps.calm_op (s.stack y.fw.life) (.process none) y.fw.w fun _ h => .inr (by cases h; rfl)
      show (Avr.call s (.process none) y.fw).w.v.st = .active
      rw [e, active_parts h.st]
      have h0 : (Core.activeEventOpt (s.ctx y.fw.life) (readMessage (s.ctx y.fw.life) none y.fw.w).1 (preProcess (s.ctx y.fw.life) none y.fw.w).2).2 = (preProcess (s.ctx y.fw.life) none y.fw.w).2 := rfl
      rw [h0]
      have hs1 : Steps (s.ctx y.fw.life) True _ (preProcess (s.ctx y.fw.life) none y.fw.w).2 (Core.activeHeartbeat (s.ctx y.fw.life) (preProcess (s.ctx y.fw.life) none y.fw.w).2).2 := Foot.activeHeartbeat _
      have hs2 : Steps (s.ctx y.fw.life) True _ (Core.activeHeartbeat (s.ctx y.fw.life) (preProcess (s.ctx y.fw.life) none y.fw.w).2).2 _ := Foot.activeExtRead _
      exact (Comp.same_trans (pre_same (s.ctx y.fw.life) none y.fw.w .st (by decide)) (Comp.same_trans (hs1.same .st (by decide)) (hs2.same .st (by decide)))).trans h.st
    · show x.2.stored.length = (y.heard ++ []).length
      rw [hx, List.append_nil]
      exact h.all

theorem quiet_run : ∀ (l : List Move) {y y' : State}, Inv s y → Quiet y → (∀ mv ∈ l, AvrSys.Ok mv ∧ Lone mv) → run s a l y = .ok y' → Quiet y' ∧ y'.fw.life = y.fw.life
  | [], y, y', _, h, _, hr => by cases hr; exact ⟨h, rfl⟩
  | mv :: l, y, y', hi, h, hl, hr => by
    have hl' : ∀ mv ∈ l, AvrSys.Ok mv ∧ Lone mv := fun mv h => hl mv (List.mem_cons_of_mem _ h)
    have hmv := hl _ (List.mem_cons_self ..)
    obtain ⟨y1, hd, h1, hr'⟩ := run_does hi (fun mv h => (hl' mv h).1) hmv.1 hr
    obtain ⟨q1, q2⟩ := quiet_does hi h hmv.2 hd
    obtain ⟨q3, q4⟩ := quiet_run l h1 q1 hl' hr'
    exact ⟨q3, q4.trans q2⟩

/-- C119: an active example which is left alone stays active and does not restart, and sends its heartbeats. -/
theorem C119_alone {past : List Out} {n : Nat} {ps : Nat → U8} {ctl : CanDrv.State} {l l' : List Move} (hl : ∀ mv ∈ l, AvrSys.Ok mv) (hl' : ∀ mv ∈ l', AvrSys.Ok mv ∧ AvrSys.Alone mv ∧ ∀ b, mv ≠ .rx b) {y y' : State}
    (hr : run s a l (boot s past n ps ctl) = .ok y) (hr' : run s a l' y = .ok y') (hn : y.fw.life = n) (ha : y.fw.w.v.st = .active) (hp : y.pressed = false) (hu : y.x.2.stored.length = y.heard.length) :
    y'.fw.life = n ∧ Stays s a l' y ∧ (Fast (l ++ l') → 30000 < ticks l' →
      ∃ l1 mv l2 y1 y2 t m ok, l' = l1 ++ mv :: l2 ∧ run s a l1 y = .ok y1 ∧ run s a [mv] y1 = .ok y2 ∧ y2.fw.w.out = y1.fw.w.out ++ t ∧ .tx m ok ∈ t ∧ Beat s y2 m) := by
  have hi := inv_of (boot_inv past n ps ctl) hl hr
  have hq : Quiet y := ⟨ha, hp, hu⟩
  have h1 := (quiet_run l' hi hq hl' hr').2.trans hn
  have h2 : Stays s a l' y := fun l1 l2 y1 e hr1 => (quiet_run l1 hi hq (fun mv h => hl' mv (by rw [e]; exact List.mem_append_left _ h)) hr1).1.st
  refine ⟨h1, h2, fun hf ht => C119_least (fun mv h => ?_) hr hr' h1 hf h2 ht⟩
  rcases List.mem_append.1 h with h | h
  · exact hl mv h
  · exact (hl' mv h).1

theorem ex_time (n : Nat) : ticks (exTime false n) = n ∧ Fast (exTime false n) ∧ ∀ mv ∈ exTime false n, AvrSys.Ok mv ∧ AvrSys.Alone mv ∧ ∀ b, mv ≠ .rx b := by
  refine ⟨?_, ?_, ?_⟩
  · induction n with
    | zero => rfl
    | succ n ih =>
      have e : exTime false (n + 1) = exMs false ++ exTime false n := rfl
      rw [e, ticks_append, ih]
      show 1 + n = n + 1
      omega
  · induction n with
    | zero => trivial
    | succ n ih =>
      have e : exTime false (n + 1) = exMs false ++ exTime false n := rfl
      rw [e]
      exact ⟨by simp [stepsNow], ih⟩
  · intro mv h
    simp only [exTime, exMs, List.mem_replicate, List.mem_flatten] at h
    obtain ⟨l, ⟨-, rfl⟩, h⟩ := h
    simp only [List.mem_cons, List.not_mem_nil, or_false] at h
    rcases h with rfl | rfl | rfl | rfl | rfl <;> exact ⟨trivial, by first | rfl | trivial, fun _ h => (by cases h)⟩

/-- The hypotheses can be met: more than 30 s after its start the example has sent a heartbeat. -/
example (n : Nat) (hn : 30000 < n) : ∃ y y', exHist (exMs false) = .ok y ∧ run AvrProps.exSurr (fun _ => CanNode.exAround) (exTime false n) y = .ok y' ∧
    Stays AvrProps.exSurr (fun _ => CanNode.exAround) (exTime false n) y ∧ y'.fw.life = 0 ∧
    ∃ l1 mv l2 y1 y2 t m ok, exTime false n = l1 ++ mv :: l2 ∧ run AvrProps.exSurr (fun _ => CanNode.exAround) l1 y = .ok y1 ∧ run AvrProps.exSurr (fun _ => CanNode.exAround) [mv] y1 = .ok y2 ∧
      y2.fw.w.out = y1.fw.w.out ++ t ∧ .tx m ok ∈ t ∧ Beat AvrProps.exSurr y2 m := by
  obtain ⟨ht, hf, hl⟩ := ex_time n
  have hok : ∀ mv ∈ exMs false, AvrSys.Ok mv := by simp [exMs, AvrSys.Ok]
  obtain ⟨y, hy⟩ := ex_possible hok
  obtain ⟨y', hy'⟩ := ex_possible (l := exMs false ++ exTime false n) fun mv h => (List.mem_append.1 h).elim (hok mv) fun h => (hl mv h).1
  have hst : (match exHist (exMs false) with
    | .ok y => decide (y.fw.life = 0 ∧ y.fw.w.v.st = .active ∧ y.pressed = false ∧ y.x.2.stored.length = y.heard.length)
    | _ => false) = true := by decide +kernel
  rw [hy] at hst
  obtain ⟨h1, h2, h3, h4⟩ := of_decide_eq_true hst
  have hr' : run AvrProps.exSurr (fun _ => CanNode.exAround) (exTime false n) y = .ok y' := by
    unfold exHist at hy hy'
    rw [run_append, hy] at hy'
    exact hy'
  obtain ⟨q1, q2, q3⟩ := C119_alone hok hl hy hr' h1 h2 h3 h4
  exact ⟨y, y', hy, hr', q2, q1, q3 ⟨by simp [stepsNow], hf⟩ (by rw [ht]; exact hn)⟩

end Vscp.Avr.Sys
