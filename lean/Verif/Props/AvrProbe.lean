/-
Property theorems: an AVR example probes a nickname and waits for an answer before it takes it, the lowest one without an answer first (C125).
-/
import Verif.Props.AvrJoin

namespace Vscp.Avr.Sys
open M Vscp.Driver Vscp.Spec Vscp.Spec.AvrSys Vscp.Safety Vscp.Transport Vscp.Discovery
open Vscp.Driver.CanNode (Around Res)

variable {s : Surr} {a : Nat → Around}

/-- The discovery begins with the segment master, also with the callbacks of the example. -/
theorem active_begins (k : Nat) (rx : Option Msg) {w : W} (ha : w.v.st = .active) : K (stepOpC (s.ctx k) (s.cb k) (.process rx) w).2 := by
  cases rx with
  | none =>
    rw [AvrProps.calm_op (s.stack k) (.process none) w fun _ h => .inr (by cases h; rfl)]
    exact K_cycle (s.ctx k) none w (by rw [ha]; decide) (by rw [ha]; decide)
  | some m =>
    obtain ⟨tp, ub, t, h1, -⟩ := AvrProps.cycle (sz := s.sz) (e := s.env k) (s.stack k) m w ha
    rw [show (stepOpC (s.ctx k) (s.cb k) (.process (some m)) w).2 = _ from h1]
    have hp : K (preProcess (s.ctx k) (some m) w).2 := fun h => absurd ((pre_same (s.ctx k) (some m) w .st (by decide)).symm.trans h) (by rw [ha]; decide)
    have hh : K (AvrProps.handled (s.ctx k) m w) := by
      unfold AvrProps.handled
      split
      · exact K_handler (s.ctx k) m _ hp
      · exact hp
    have hh' : K { AvrProps.handled (s.ctx k) m w with tp := tp, ub := ub, out := (AvrProps.handled (s.ctx k) m w).out ++ t } := hh
    have hs1 : Steps (s.ctx k) True _ _ (Core.activeHeartbeat (s.ctx k) { AvrProps.handled (s.ctx k) m w with tp := tp, ub := ub, out := (AvrProps.handled (s.ctx k) m w).out ++ t }).2 := Foot.activeHeartbeat _
    have hs2 : Steps (s.ctx k) True _ (Core.activeHeartbeat (s.ctx k) { AvrProps.handled (s.ctx k) m w with tp := tp, ub := ub, out := (AvrProps.handled (s.ctx k) m w).out ++ t }).2 _ := Foot.activeExtRead _
    exact K_steps hs2 (by decide) (K_steps hs1 (by decide) hh')

/-- The main timer of the framework. -/
abbrev remMain (y : State) : Nat := (y.fw.w.tm.rem .main).toNat

/-- The node waits for an answer to a probe. -/
def Waits (y : State) : Prop := y.fw.w.v.st = .init ∧ y.fw.w.v.ist = .probeWait

/-- How a node comes to wait for an answer to a probe: it waited before, or it has sent the probe. -/
theorem waits_does {y y1 : State} {mv : Move} (hi : Inv s y) (hfr : Fresh y) (hd : Does s a y mv y1) (hw : Waits y1) :
    y1.fw.life = y.fw.life ∧
    ((Waits y ∧ y1.fw.w.v.probe = y.fw.w.v.probe ∧ (∃ h, y1.heard = y.heard ++ h ∧ ∀ m ∈ h, ¬ackFrom m y.fw.w.v.probe) ∧ remMain y + rest y ≤ remMain y1 + rest y1 + ticks [mv]) ∨
     (probesOf (y1.fw.w.out.drop y.fw.w.out.length) = [y1.fw.w.v.probe] ∧ remMain y1 = 2000)) := by
  have same : ∀ {y1 : State}, Waits y1 → y1.fw.w = y.fw.w → y1.heard = y.heard → rest y ≤ rest y1 + ticks [mv] →
      Waits y ∧ y1.fw.w.v.probe = y.fw.w.v.probe ∧ (∃ h, y1.heard = y.heard ++ h ∧ ∀ m ∈ h, ¬ackFrom m y.fw.w.v.probe) ∧ remMain y + rest y ≤ remMain y1 + rest y1 + ticks [mv] := by
    intro y1 hw e1 e2 e3
    refine ⟨by unfold Waits at hw ⊢; rw [← e1]; exact hw, by rw [e1], ⟨[], by rw [e2, List.append_nil], by simp⟩, ?_⟩
    unfold remMain
    rw [e1]
    omega
  cases hd with
  | tick b =>
    have e : rest (timerCb b y) = rest y - 1 := (sw_tick hi.sw).2
    exact ⟨rfl, .inl (same hw rfl rfl (by rw [e]; show _ ≤ _ + 1; omega))⟩
  | power =>
    exact absurd hw.1 (init_not_init (s.ctx (y.fw.life + 1)) allOk (powerUp y.fw.w.ps))
  | reset m ctl hpc hm' hr => exact absurd hw.1 (init_not_init (s.ctx (y.fw.life + 1)) allOk (powerUp (Avr.call s (.process m) y.fw).w.ps))
  | rx f x hc => exact ⟨rfl, .inl (same hw rfl rfl (Nat.le_refl _))⟩
  | tx x hc => exact ⟨rfl, .inl (same hw rfl rfl (Nat.le_refl _))⟩
  | quiet hpc hp => exact ⟨rfl, .inl (same hw rfl rfl (Nat.le_refl _))⟩
  | remember hpc => exact ⟨rfl, .inl (same hw rfl rfl (Nat.le_refl _))⟩
  | notDue hpc hz => exact ⟨rfl, .inl (same hw rfl rfl (Nat.le_refl _))⟩
  | segInit x hpc hp hl hc =>
    have e : (Avr.call s .startNodeSegmentInit y.fw).w = (stepOp (s.ctx y.fw.life) .startNodeSegmentInit y.fw.w).2 :=
      AvrProps.calm_op (s.stack y.fw.life) .startNodeSegmentInit y.fw.w fun rx h => (by cases h)
    obtain ⟨hw1, hw2⟩ : (Avr.call s .startNodeSegmentInit y.fw).w.v.st = .init ∧ (Avr.call s .startNodeSegmentInit y.fw).w.v.ist = .probeWait := hw
    rw [e] at hw1 hw2
    refine ⟨rfl, .inl ?_⟩
    rcases op_look (s.ctx y.fw.life) .startNodeSegmentInit y.fw.w (fun rx h => (by cases h)) with (h | ⟨h, -⟩) | ⟨-, h1, h2, h3, h4⟩
    · exact absurd (.inl hw1) h
    · rw [hw2] at h; cases h
    · rw [← e] at h1 h2 h3 h4
      refine ⟨⟨h1.symm.trans (by rw [e]; exact hw1), h2.symm.trans (by rw [e]; exact hw2)⟩, h3, ⟨[], (List.append_nil _).symm, by simp⟩, ?_⟩
      have h4 : ((Avr.call s .startNodeSegmentInit y.fw).w.tm.rem .main).toNat = remMain y - 0 := h4
      show remMain y + rest y ≤ ((Avr.call s .startNodeSegmentInit y.fw).w.tm.rem .main).toNat + rest y + 0
      omega
  | due x sw hpc hz hsw hc =>
    obtain ⟨k1, k2, k3, k4, -, -, k7⟩ := AvrProps.tick_call s 250 y.fw
    have e : (later s y.fw).w = (Avr.call s (.tick 250) y.fw).w := by rw [later_w, call_w]
    rw [← e] at k1 k7
    obtain ⟨hw1, hw2⟩ : (later s y.fw).w.v.st = .init ∧ (later s y.fw).w.v.ist = .probeWait := hw
    refine ⟨later_life y.fw, .inl ⟨⟨by rw [← k1]; exact hw1, by rw [← k1]; exact hw2⟩, by show (later s y.fw).w.v.probe = _; rw [k1], ⟨[], (List.append_nil _).symm, by simp⟩, ?_⟩⟩
    show remMain y + rest y ≤ ((later s y.fw).w.tm.rem .main).toNat + sw[1].value.toNat + 0
    rw [k7, hsw, hz]
    show remMain y + 0 ≤ remMain y - 250 + 250 + 0
    omega
  | cycle m x hpc hm' hr hc =>
    refine ⟨rfl, ?_⟩
    obtain ⟨hw1, hw2⟩ : (Avr.call s (.process m) y.fw).w.v.st = .init ∧ (Avr.call s (.process m) y.fw).w.v.ist = .probeWait := hw
    by_cases ha : y.fw.w.v.st = .active
    · have := active_begins (s := s) y.fw.life m ha hw1
      rw [show (stepOpC (s.ctx y.fw.life) (s.cb y.fw.life) (.process m) y.fw.w).2.v.ist = _ from hw2] at this
      cases this
    have e : (Avr.call s (.process m) y.fw).w = (Core.process (s.ctx y.fw.life) m y.fw.w).2 :=
      AvrProps.calm_op (s.stack y.fw.life) (.process m) y.fw.w fun _ _ => .inl ha
    show (Waits y ∧ (Avr.call s (.process m) y.fw).w.v.probe = y.fw.w.v.probe ∧ (∃ h, y.heard ++ m.toList = y.heard ++ h ∧ ∀ m ∈ h, ¬ackFrom m y.fw.w.v.probe) ∧
      remMain y + rest y ≤ ((Avr.call s (.process m) y.fw).w.tm.rem .main).toNat + rest y + 0) ∨
      (probesOf ((Avr.call s (.process m) y.fw).w.out.drop y.fw.w.out.length) = [(Avr.call s (.process m) y.fw).w.v.probe] ∧ ((Avr.call s (.process m) y.fw).w.tm.rem .main).toNat = 2000)
    rw [e] at hw1 hw2 ⊢
    have hok := hfr.ok
    have key : ∀ {d : Disc}, disc (Core.process (s.ctx y.fw.life) m y.fw.w).2 = d → d.st = .init ∧ d.ist = .probeWait ∧
        (Core.process (s.ctx y.fw.life) m y.fw.w).2.v.probe = d.probe ∧ (Core.process (s.ctx y.fw.life) m y.fw.w).2.tm.rem .main = d.rem := by
      rintro _ rfl; exact ⟨hw1, hw2, rfl, rfl⟩
    by_cases hst : y.fw.w.v.st = .init
    · cases hist : y.fw.w.v.ist with
      | probeMaster =>
        rcases cycle_probeMaster (s.ctx y.fw.life) m y.fw.w hst hist with ⟨-, -, hd⟩ | ⟨-, -, hd⟩
        · have := (key hd).2.1
          rw [show (disc y.fw.w).ist = _ from hist] at this
          cases this
        · have := (key hd).2.1
          cases this
      | probeMasterWait =>
        obtain ⟨-, ⟨-, hd⟩ | ⟨-, hd | hd⟩⟩ := cycle_probeMasterWait (s.ctx y.fw.life) m y.fw.w hst hist
        · have := (key hd).2.1
          cases this
        · have := (key hd).1
          cases this
        · have := (key hd).2.1
          rw [show (disc y.fw.w).ist = _ from hist] at this
          cases this
      | probe =>
        rcases cycle_probe (s.ctx y.fw.life) m y.fw.w hst hist with ⟨-, -, hd⟩ | ⟨-, hp, ⟨-, hd⟩ | ⟨-, hd⟩⟩
        · have := (key hd).2.1
          rw [show (disc y.fw.w).ist = _ from hist] at this
          cases this
        · rw [hd] at hw1; cases hw1
        · obtain ⟨-, -, k3, k4⟩ := key hd
          refine .inr ⟨by rw [hp, k3]; rfl, ?_⟩
          rw [k4]
          dsimp only
          rw [if_pos hok]
          rfl
      | probeWait =>
        rcases cycle_probeWait (s.ctx y.fw.life) m y.fw.w hst hist with ⟨-, hd, -, -⟩ | ⟨-, -, ⟨-, hd⟩ | ⟨hn, hd⟩⟩
        · rw [hd] at hw1; cases hw1
        · have := (key hd).2.1
          cases this
        · obtain ⟨-, -, k3, k4⟩ := key hd
          refine .inl ⟨⟨hst, hist⟩, k3, ⟨m.toList, rfl, fun m' hm' hk => hn ⟨m', ?_, hk⟩⟩, ?_⟩
          · cases m with
            | none => cases hm'
            | some m =>
              rw [List.mem_singleton.1 hm']
              rfl
          · rw [k4]
            exact Nat.le_refl _
    · by_cases hp : y.fw.w.v.st = .preActive
      · rcases cycle_preActive (s.ctx y.fw.life) m y.fw.w hp with ⟨-, -, hd⟩ | ⟨-, ha | ⟨-, hd⟩⟩
        · have := (key hd).2.1
          cases this
        · rw [ha] at hw1; cases hw1
        · have := (key hd).1
          rw [show (disc y.fw.w).st = _ from hp] at this
          cases this
      · have := K_cycle (s.ctx y.fw.life) m y.fw.w hst hp hw1
        rw [hw2] at this
        cases this

/-- The nickname `q` was probed in the history `l`; since then at least `t` ms have passed, and no answer was heard. -/
def Asked (s : Surr) (a : Nat → Around) (y0 : State) (l : List Move) (y : State) (q : U8) (t : Nat) : Prop :=
  ∃ l1 mv l2 y1 y2 h, l = l1 ++ mv :: l2 ∧ run s a l1 y0 = .ok y1 ∧ run s a [mv] y1 = .ok y2 ∧ run s a l2 y2 = .ok y ∧ y1.fw.life = y.fw.life ∧ y2.fw.life = y.fw.life ∧
    probesOf (y2.fw.w.out.drop y1.fw.w.out.length) = [q] ∧ y.heard = y2.heard ++ h ∧ (∀ m ∈ h, ¬ackFrom m q) ∧ t ≤ ticks l2

theorem waits_run {y0 : State} (h0 : Inv s y0) (hf0 : Fresh y0) (hn : ¬Waits y0) (k : Nat) : ∀ {l : List Move} {y : State}, l.length = k → (∀ mv ∈ l, AvrSys.Ok mv) → run s a l y0 = .ok y → Waits y →
    Asked s a y0 l y y.fw.w.v.probe (2000 - remMain y - rest y) := by
  induction k with
  | zero =>
    intro l y hk _ hr hw
    cases List.length_eq_zero_iff.1 hk
    cases hr
    exact absurd hw hn
  | succ k ih =>
    intro l' y' hk hl hr hw
    obtain ⟨l, mv, rfl⟩ : ∃ l mv, l' = l ++ [mv] := by
      rcases List.eq_nil_or_concat l' with rfl | ⟨l, mv, e⟩
      · cases hk
      · exact ⟨l, mv, by rw [e, List.concat_eq_append]⟩
    have hk : l.length = k := by simpa using hk
    have hl' : ∀ mv ∈ l, AvrSys.Ok mv := fun mv h => hl mv (List.mem_append_left _ h)
    have hmv := hl mv (List.mem_append_right _ (List.mem_singleton_self _))
    rw [run_append] at hr
    cases hy : run s a l y0 with
    | ub => rw [hy] at hr; cases hr
    | impossible => rw [hy] at hr; cases hr
    | ok y =>
      rw [hy] at hr
      have hr : run s a [mv] y = .ok y' := hr
      have hi := inv_of h0 hl' hy
      obtain ⟨y1, hm, hd, -, hr1⟩ := head_run hi hmv hr
      cases hr1
      obtain ⟨e, ⟨hw0, e1, ⟨h, e2, e3⟩, e4⟩ | ⟨e1, e2⟩⟩ := waits_does hi (run_fresh l h0 hl' hf0 hy) hd hw
      · obtain ⟨l1, mv1, l2, z1, z2, h', q1, q2, q3, q3', q4, q5, q6, q7, q8, q9⟩ := ih hk hl' hy hw0
        refine ⟨l1, mv1, l2 ++ [mv], z1, z2, h' ++ h, by rw [q1]; simp, q2, q3, by rw [run_append, q3']; exact hr, q4.trans e.symm, q5.trans e.symm, by rw [e1]; exact q6, by rw [e2, q7, List.append_assoc], ?_, ?_⟩
        · rw [e1]
          exact fun m hm => (List.mem_append.1 hm).elim (q8 m) (e3 m)
        · rw [ticks_append]
          omega
      · exact ⟨l, mv, [], y, y', [], rfl, hy, hr, rfl, e.symm, rfl, e1, (List.append_nil _).symm, by simp, by rw [e2]; show 2000 - 2000 - _ ≤ 0; omega⟩

/-- The move with which a node takes a nickname. -/
theorem takes {past : List Out} {n : Nat} {ps : Nat → U8} {ctl : CanDrv.State} {l : List Move} {mv : Move} (hl : ∀ mv ∈ l, AvrSys.Ok mv) (hm : AvrSys.Ok mv) {y y' : State}
    (hr : run s a l (boot s past n ps ctl) = .ok y) (hr' : run s a [mv] y = .ok y') (hst : y.fw.w.v.st = .init) (hst' : y'.fw.w.v.st = .active) :
    Waits y ∧ remMain y = 0 ∧ y'.fw.w.v.nick = y.fw.w.v.probe ∧ y'.fw.w.ps 0 = y.fw.w.v.probe := by
  have hi := inv_of (boot_inv past n ps ctl) hl hr
  obtain ⟨y1, -, hd, -, hr1⟩ := head_run hi hm hr'
  cases hr1
  have hok := (run_fresh l (boot_inv past n ps ctl) hl (fresh_boot ..) hr).ok
  have no : ∀ {y1 : State}, y1.fw.w.v.st = .active → y1.fw.w.v.st = y.fw.w.v.st → False := fun h e => by rw [e, hst] at h; cases h
  cases hd with
  | tick b => exact (no hst' rfl).elim
  | power =>
    have : (Core.init (s.ctx (y.fw.life + 1)) allOk (powerUp y.fw.w.ps)).2.v.st = .active := hst'
    rcases init_st (s.ctx (y.fw.life + 1)) allOk (powerUp y.fw.w.ps) with h | h <;> rw [h] at this <;> cases this
  | reset m ctl hpc hm' hr =>
    have := (AvrProps.reset_last s m y.fw (ok_small hm') hr).1
    rw [hst] at this
    cases this
  | rx f x hc => exact (no hst' rfl).elim
  | tx x hc => exact (no hst' rfl).elim
  | quiet hpc hp => exact (no hst' rfl).elim
  | remember hpc => exact (no hst' rfl).elim
  | notDue hpc hz => exact (no hst' rfl).elim
  | segInit x hpc hp hl hc =>
    have e : (Avr.call s .startNodeSegmentInit y.fw).w = (stepOp (s.ctx y.fw.life) .startNodeSegmentInit y.fw.w).2 :=
      AvrProps.calm_op (s.stack y.fw.life) .startNodeSegmentInit y.fw.w fun rx h => (by cases h)
    have e2 : (stepOp (s.ctx y.fw.life) .startNodeSegmentInit y.fw.w).2 = y.fw.w := by
      show (Core.startNodeSegmentInit (s.ctx y.fw.life) y.fw.w).2 = y.fw.w
      unfold Core.startNodeSegmentInit
      rw [bind_run, get_run, whenM_run, if_neg (by simpa using hst)]
    exact (no hst' (congrArg (fun w => w.v.st) (e.trans e2))).elim
  | due x sw hpc hz hsw hc =>
    obtain ⟨k1, -⟩ := AvrProps.tick_call s 250 y.fw
    have e : (later s y.fw).w = (Avr.call s (.tick 250) y.fw).w := by rw [later_w, call_w]
    rw [← e] at k1
    exact (no hst' (congrArg (·.st) k1)).elim
  | cycle m x hpc hm' hr hc =>
    have e : (Avr.call s (.process m) y.fw).w = (Core.process (s.ctx y.fw.life) m y.fw.w).2 :=
      AvrProps.calm_op (s.stack y.fw.life) (.process m) y.fw.w fun _ _ => .inl (by rw [hst]; decide)
    have hst' : (Avr.call s (.process m) y.fw).w.v.st = .active := hst'
    show Waits y ∧ remMain y = 0 ∧ (Avr.call s (.process m) y.fw).w.v.nick = y.fw.w.v.probe ∧ (Avr.call s (.process m) y.fw).w.ps 0 = y.fw.w.v.probe
    rw [e] at hst' ⊢
    have key : ∀ {d : Disc}, disc (Core.process (s.ctx y.fw.life) m y.fw.w).2 = d → d.st = .init → False := by
      rintro _ rfl h
      rw [show (disc (Core.process (s.ctx y.fw.life) m y.fw.w).2).st = _ from hst'] at h
      cases h
    cases hist : y.fw.w.v.ist with
    | probeMaster =>
      rcases cycle_probeMaster (s.ctx y.fw.life) m y.fw.w hst hist with ⟨-, -, hd⟩ | ⟨-, -, hd⟩
      · exact (key hd hst).elim
      · exact (key hd hst).elim
    | probeMasterWait =>
      obtain ⟨-, ⟨-, hd⟩ | ⟨-, hd | hd⟩⟩ := cycle_probeMasterWait (s.ctx y.fw.life) m y.fw.w hst hist
      · exact (key hd hst).elim
      · have := congrArg Disc.st hd
        rw [show (disc (Core.process (s.ctx y.fw.life) m y.fw.w).2).st = _ from hst'] at this
        cases this
      · exact (key hd hst).elim
    | probe =>
      rcases cycle_probe (s.ctx y.fw.life) m y.fw.w hst hist with ⟨-, -, hd⟩ | ⟨-, hp, ⟨-, hd⟩ | ⟨-, hd⟩⟩
      · exact (key hd hst).elim
      · rw [hst'] at hd; cases hd
      · exact (key hd hst).elim
    | probeWait =>
      rcases cycle_probeWait (s.ctx y.fw.life) m y.fw.w hst hist with ⟨hrn, -, h1, h2⟩ | ⟨-, -, ⟨-, hd⟩ | ⟨hn, hd⟩⟩
      · refine ⟨⟨hst, hist⟩, ?_, h1, h2⟩
        unfold Disc.running at hrn
        rw [show (disc y.fw.w).ok = true from hok] at hrn
        have : y.fw.w.tm.rem .main = 0 := by simpa [disc] using hrn
        unfold remMain
        rw [this]
        rfl
      · exact (key hd hst).elim
      · exact (key hd hst).elim

/-- C125: an AVR example which takes a nickname by itself has probed it, in the same life; 1.75 s or more have passed since then, and it has heard no answer; and it stores the nickname. -/
theorem C125_waited {past : List Out} {n : Nat} {ps : Nat → U8} {ctl : CanDrv.State} {l : List Move} {mv : Move} (hl : ∀ mv ∈ l, AvrSys.Ok mv) (hm : AvrSys.Ok mv) {y y' : State}
    (hr : run s a l (boot s past n ps ctl) = .ok y) (hr' : run s a [mv] y = .ok y') (hst : y.fw.w.v.st = .init) (hst' : y'.fw.w.v.st = .active) :
    Asked s a (boot s past n ps ctl) l y y'.fw.w.v.nick 1750 ∧ y'.fw.w.ps 0 = y'.fw.w.v.nick := by
  have hi := inv_of (boot_inv past n ps ctl) hl hr
  obtain ⟨hw, h1, h2, h3⟩ := takes hl hm hr hr' hst hst'
  have hn : ¬Waits (boot s past n ps ctl) := fun h => init_not_init (s.ctx n) allOk (powerUp ps) h.1
  obtain ⟨l1, mv1, l2, z1, z2, h', q1, q2, q3, q3', q4, q5, q6, q7, q8, q9⟩ := waits_run (boot_inv past n ps ctl) (fresh_boot ..) hn _ rfl hl hr hw
  have hle : rest y ≤ 250 := hi.sw.le
  refine ⟨⟨l1, mv1, l2, z1, z2, h', q1, q2, q3, q3', q4, q5, by rw [h2]; exact q6, q7, by rw [h2]; exact q8, by omega⟩, by rw [h2, h3]⟩

/-! ### All nicknames below are in use -/

/-- The node probes nicknames. -/
def Scans (y : State) : Prop := y.fw.w.v.st = .init ∧ (y.fw.w.v.ist = .probe ∨ y.fw.w.v.ist = .probeWait)

/-- How a node comes to probe nicknames: it did before, perhaps another one which is in use, or it begins with nickname 1. -/
theorem scans_does {y y1 : State} {mv : Move} (hd : Does s a y mv y1) (hw : Scans y1) :
    y1.fw.life = y.fw.life ∧
    ((Scans y ∧ ∃ h, y1.heard = y.heard ++ h ∧ (y1.fw.w.v.probe = y.fw.w.v.probe ∨ y1.fw.w.v.probe = y.fw.w.v.probe + 1 ∧ ∃ m ∈ h, ackFrom m y.fw.w.v.probe)) ∨
     (y1.fw.w.v.ist = .probe ∧ y1.fw.w.v.probe = 1)) := by
  have same : ∀ {y1 : State}, Scans y1 → y1.fw.w.v = y.fw.w.v → y1.heard = y.heard →
      Scans y ∧ ∃ h, y1.heard = y.heard ++ h ∧ (y1.fw.w.v.probe = y.fw.w.v.probe ∨ y1.fw.w.v.probe = y.fw.w.v.probe + 1 ∧ ∃ m ∈ h, ackFrom m y.fw.w.v.probe) := by
    intro y1 hw e1 e2
    exact ⟨by unfold Scans at hw ⊢; rw [← e1]; exact hw, [], by rw [e2, List.append_nil], .inl (by rw [e1])⟩
  cases hd with
  | tick b => exact ⟨rfl, .inl (same hw rfl rfl)⟩
  | power => exact absurd hw.1 (init_not_init (s.ctx (y.fw.life + 1)) allOk (powerUp y.fw.w.ps))
  | reset m ctl hpc hm' hr => exact absurd hw.1 (init_not_init (s.ctx (y.fw.life + 1)) allOk (powerUp (Avr.call s (.process m) y.fw).w.ps))
  | rx f x hc => exact ⟨rfl, .inl (same hw rfl rfl)⟩
  | tx x hc => exact ⟨rfl, .inl (same hw rfl rfl)⟩
  | quiet hpc hp => exact ⟨rfl, .inl (same hw rfl rfl)⟩
  | remember hpc => exact ⟨rfl, .inl (same hw rfl rfl)⟩
  | notDue hpc hz => exact ⟨rfl, .inl (same hw rfl rfl)⟩
  | segInit x hpc hp hl hc =>
    have e : (Avr.call s .startNodeSegmentInit y.fw).w = (stepOp (s.ctx y.fw.life) .startNodeSegmentInit y.fw.w).2 :=
      AvrProps.calm_op (s.stack y.fw.life) .startNodeSegmentInit y.fw.w fun rx h => (by cases h)
    obtain ⟨hw1, hw2⟩ : (Avr.call s .startNodeSegmentInit y.fw).w.v.st = .init ∧
      ((Avr.call s .startNodeSegmentInit y.fw).w.v.ist = .probe ∨ (Avr.call s .startNodeSegmentInit y.fw).w.v.ist = .probeWait) := hw
    rw [e] at hw1 hw2
    refine ⟨rfl, .inl ?_⟩
    rcases op_look (s.ctx y.fw.life) .startNodeSegmentInit y.fw.w (fun rx h => (by cases h)) with (h | ⟨h, -⟩) | ⟨-, h1, h2, h3, -⟩
    · exact absurd (.inl hw1) h
    · rw [h] at hw2; rcases hw2 with h | h <;> cases h
    · exact ⟨⟨h1.symm.trans hw1, by rw [← h2]; exact hw2⟩, [], (List.append_nil _).symm, .inl (by rw [← e] at h3; exact h3)⟩
  | due x sw hpc hz hsw hc =>
    obtain ⟨k1, -⟩ := AvrProps.tick_call s 250 y.fw
    have e : (later s y.fw).w = (Avr.call s (.tick 250) y.fw).w := by rw [later_w, call_w]
    rw [← e] at k1
    exact ⟨later_life y.fw, .inl (same hw k1 rfl)⟩
  | cycle m x hpc hm' hr hc =>
    refine ⟨rfl, ?_⟩
    obtain ⟨hw1, hw2⟩ : (Avr.call s (.process m) y.fw).w.v.st = .init ∧ ((Avr.call s (.process m) y.fw).w.v.ist = .probe ∨ (Avr.call s (.process m) y.fw).w.v.ist = .probeWait) := hw
    by_cases ha : y.fw.w.v.st = .active
    · have := active_begins (s := s) y.fw.life m ha hw1
      rw [show (Avr.call s (.process m) y.fw).w.v.ist = _ from this] at hw2
      rcases hw2 with h | h <;> cases h
    have e : (Avr.call s (.process m) y.fw).w = (Core.process (s.ctx y.fw.life) m y.fw.w).2 :=
      AvrProps.calm_op (s.stack y.fw.life) (.process m) y.fw.w fun _ _ => .inl ha
    show (Scans y ∧ ∃ h, y.heard ++ m.toList = y.heard ++ h ∧ ((Avr.call s (.process m) y.fw).w.v.probe = y.fw.w.v.probe ∨
      (Avr.call s (.process m) y.fw).w.v.probe = y.fw.w.v.probe + 1 ∧ ∃ m ∈ h, ackFrom m y.fw.w.v.probe)) ∨
      ((Avr.call s (.process m) y.fw).w.v.ist = .probe ∧ (Avr.call s (.process m) y.fw).w.v.probe = 1)
    rw [e] at hw1 hw2 ⊢
    have key : ∀ {d : Disc}, disc (Core.process (s.ctx y.fw.life) m y.fw.w).2 = d → d.st = .init ∧ (d.ist = .probe ∨ d.ist = .probeWait) ∧
        (Core.process (s.ctx y.fw.life) m y.fw.w).2.v.ist = d.ist ∧ (Core.process (s.ctx y.fw.life) m y.fw.w).2.v.probe = d.probe := by
      rintro _ rfl; exact ⟨hw1, hw2, rfl, rfl⟩
    have no : ∀ {d : Disc}, d.ist = .probeMaster ∨ d.ist = .probeMasterWait → d.ist = .probe ∨ d.ist = .probeWait → False := by
      intro d h1 h2
      rcases h1 with h1 | h1 <;> rw [h1] at h2 <;> rcases h2 with h2 | h2 <;> cases h2
    by_cases hst : y.fw.w.v.st = .init
    · cases hist : y.fw.w.v.ist with
      | probeMaster =>
        rcases cycle_probeMaster (s.ctx y.fw.life) m y.fw.w hst hist with ⟨-, -, hd⟩ | ⟨-, -, hd⟩
        · exact (no (.inl hist) (key hd).2.1).elim
        · exact (no (.inr rfl) (key hd).2.1).elim
      | probeMasterWait =>
        obtain ⟨-, ⟨-, hd⟩ | ⟨-, hd | hd⟩⟩ := cycle_probeMasterWait (s.ctx y.fw.life) m y.fw.w hst hist
        · exact .inr (key hd).2.2
        · have := (key hd).1
          cases this
        · exact (no (.inr hist) (key hd).2.1).elim
      | probe =>
        rcases cycle_probe (s.ctx y.fw.life) m y.fw.w hst hist with ⟨-, -, hd⟩ | ⟨-, hp, ⟨-, hd⟩ | ⟨-, hd⟩⟩
        · exact .inl ⟨⟨hst, .inl hist⟩, _, rfl, .inl (key hd).2.2.2⟩
        · rw [hd] at hw1; cases hw1
        · exact .inl ⟨⟨hst, .inl hist⟩, _, rfl, .inl (key hd).2.2.2⟩
      | probeWait =>
        rcases cycle_probeWait (s.ctx y.fw.life) m y.fw.w hst hist with ⟨-, hd, -, -⟩ | ⟨-, -, ⟨⟨m', hm', hk⟩, hd⟩ | ⟨hn, hd⟩⟩
        · rw [hd] at hw1; cases hw1
        · refine .inl ⟨⟨hst, .inr hist⟩, _, rfl, .inr ⟨(key hd).2.2.2, m', ?_, hk⟩⟩
          have hm' : m = some m' := hm'
          rw [hm']
          exact List.mem_singleton_self _
        · exact .inl ⟨⟨hst, .inr hist⟩, _, rfl, .inl (key hd).2.2.2⟩
    · by_cases hp : y.fw.w.v.st = .preActive
      · rcases cycle_preActive (s.ctx y.fw.life) m y.fw.w hp with ⟨-, -, hd⟩ | ⟨-, ha | ⟨-, hd⟩⟩
        · exact .inr (key hd).2.2
        · rw [ha] at hw1; cases hw1
        · have := (key hd).1
          rw [show (disc y.fw.w).st = _ from hp] at this
          cases this
      · have := K_cycle (s.ctx y.fw.life) m y.fw.w hst hp hw1
        rw [this] at hw2
        rcases hw2 with h | h <;> cases h

/-- In the end of the history `l` the node has looked for a nickname from 1 on, and has heard answers from all nicknames below `p`. -/
def Passed (s : Surr) (a : Nat → Around) (y0 : State) (l : List Move) (y : State) (p : U8) : Prop :=
  ∃ l1 l2 y1 h, l = l1 ++ l2 ∧ run s a l1 y0 = .ok y1 ∧ run s a l2 y1 = .ok y ∧ y1.fw.life = y.fw.life ∧ y1.fw.w.v.probe = 1 ∧
    (∀ l3 l4 z, l2 = l3 ++ l4 → run s a l3 y1 = .ok z → z.fw.w.v.st = .init) ∧ y.heard = y1.heard ++ h ∧ ∀ q : U8, 1 ≤ q.toNat → q.toNat < p.toNat → ∃ m ∈ h, ackFrom m q

theorem scans_run {y0 : State} (h0 : Inv s y0) (hn : ¬Scans y0) (k : Nat) : ∀ {l : List Move} {y : State}, l.length = k → (∀ mv ∈ l, AvrSys.Ok mv) → run s a l y0 = .ok y → Scans y →
    Passed s a y0 l y y.fw.w.v.probe := by
  induction k with
  | zero =>
    intro l y hk _ hr hw
    cases List.length_eq_zero_iff.1 hk
    cases hr
    exact absurd hw hn
  | succ k ih =>
    intro l' y' hk hl hr hw
    obtain ⟨l, mv, rfl⟩ : ∃ l mv, l' = l ++ [mv] := by
      rcases List.eq_nil_or_concat l' with rfl | ⟨l, mv, e⟩
      · cases hk
      · exact ⟨l, mv, by rw [e, List.concat_eq_append]⟩
    have hk : l.length = k := by simpa using hk
    have hl' : ∀ mv ∈ l, AvrSys.Ok mv := fun mv h => hl mv (List.mem_append_left _ h)
    have hmv := hl mv (List.mem_append_right _ (List.mem_singleton_self _))
    have hr0 := hr
    rw [run_append] at hr
    cases hy : run s a l y0 with
    | ub => rw [hy] at hr; cases hr
    | impossible => rw [hy] at hr; cases hr
    | ok y =>
      rw [hy] at hr
      have hr : run s a [mv] y = .ok y' := hr
      have hi := inv_of h0 hl' hy
      obtain ⟨y1, hm, hd, -, hr1⟩ := head_run hi hmv hr
      cases hr1
      obtain ⟨e, ⟨hw0, h, e1, e2⟩ | ⟨-, e1⟩⟩ := scans_does hd hw
      · obtain ⟨l1, l2, z1, h', q1, q2, q3, q4, q5, q6, q7, q8⟩ := ih hk hl' hy hw0
        have q3' : run s a (l2 ++ [mv]) z1 = .ok y' := by rw [run_append, q3]; exact hr
        refine ⟨l1, l2 ++ [mv], z1, h' ++ h, by rw [q1, List.append_assoc], q2, q3', q4.trans e.symm, q5, ?_, by rw [e1, q7, List.append_assoc], ?_⟩
        · intro l3 l4 z he hz
          rcases List.eq_nil_or_concat l4 with rfl | ⟨l4', mv', rfl⟩
          · rw [List.append_nil] at he
            rw [← he, q3'] at hz
            cases hz
            exact hw.1
          · rw [List.concat_eq_append, ← List.append_assoc] at he
            exact q6 l3 l4' z (List.append_inj' he rfl).1 hz
        · intro q hq1 hq2
          rcases e2 with e2 | ⟨e2, m, hm, hk⟩
          · rw [e2] at hq2
            obtain ⟨m, hm, hk⟩ := q8 q hq1 hq2
            exact ⟨m, List.mem_append_left _ hm, hk⟩
          · by_cases hlt : q.toNat < y.fw.w.v.probe.toNat
            · obtain ⟨m, hm, hk⟩ := q8 q hq1 hlt
              exact ⟨m, List.mem_append_left _ hm, hk⟩
            · have heq : q = y.fw.w.v.probe := by
                apply BitVec.eq_of_toNat_eq
                rw [e2, BitVec.toNat_add] at hq2
                have : (1 : U8).toNat = 1 := rfl
                rw [this] at hq2
                have := y.fw.w.v.probe.isLt
                omega
              exact ⟨m, List.mem_append_right _ hm, by rw [heq]; exact hk⟩
      · refine ⟨l ++ [mv], [], y', [], (List.append_nil _).symm, hr0, rfl, rfl, e1, ?_, (List.append_nil _).symm, ?_⟩
        · intro l3 l4 z he hz
          have : l3 = [] := (List.append_eq_nil_iff.1 he.symm).1
          subst this
          cases hz
          exact hw.1
        · intro q hq1 hq2
          rw [e1] at hq2
          have : (1 : U8).toNat = 1 := rfl
          omega

/-- C125: an AVR example which takes a nickname by itself has heard, since it began with 1, an answer from each lower nickname. -/
theorem C125_lowest {past : List Out} {n : Nat} {ps : Nat → U8} {ctl : CanDrv.State} {l : List Move} {mv : Move} (hl : ∀ mv ∈ l, AvrSys.Ok mv) (hm : AvrSys.Ok mv) {y y' : State}
    (hr : run s a l (boot s past n ps ctl) = .ok y) (hr' : run s a [mv] y = .ok y') (hst : y.fw.w.v.st = .init) (hst' : y'.fw.w.v.st = .active) :
    Passed s a (boot s past n ps ctl) l y y'.fw.w.v.nick := by
  obtain ⟨hw, -, h2, -⟩ := takes hl hm hr hr' hst hst'
  rw [h2]
  exact scans_run (boot_inv past n ps ctl) (fun h => init_not_init (s.ctx n) allOk (powerUp ps) h.1) _ rfl hl hr ⟨hw.1, .inr hw.2⟩

/-- C125: one which gives up has heard an answer from each nickname from 1 to 254. -/
theorem C125_gave_up {past : List Out} {n : Nat} {ps : Nat → U8} {ctl : CanDrv.State} {l : List Move} {mv : Move} (hl : ∀ mv ∈ l, AvrSys.Ok mv) (hm : AvrSys.Ok mv) {y y' : State}
    (hr : run s a l (boot s past n ps ctl) = .ok y) (hr' : run s a [mv] y = .ok y') (hst : y.fw.w.v.st = .init) (hst' : y'.fw.w.v.st = .idle) (hlife : y'.fw.life = y.fw.life) :
    Passed s a (boot s past n ps ctl) l y 0xFF := by
  have hi := inv_of (boot_inv past n ps ctl) hl hr
  obtain ⟨y1, -, hd, -, hr1⟩ := head_run hi hm hr'
  cases hr1
  have key : Scans y ∧ y.fw.w.v.probe = 0xFF := by
    have no : ∀ {y1 : State}, y1.fw.w.v.st = .idle → y1.fw.w.v.st = y.fw.w.v.st → False := fun h e => by rw [e, hst] at h; cases h
    cases hd with
    | tick b => exact (no hst' rfl).elim
    | power =>
      have : y.fw.life + 1 = y.fw.life := hlife
      omega
    | reset m ctl hpc hm' hr =>
      have := (AvrProps.reset_last s m y.fw (ok_small hm') hr).1
      rw [hst] at this
      cases this
    | rx f x hc => exact (no hst' rfl).elim
    | tx x hc => exact (no hst' rfl).elim
    | quiet hpc hp => exact (no hst' rfl).elim
    | remember hpc => exact (no hst' rfl).elim
    | notDue hpc hz => exact (no hst' rfl).elim
    | segInit x hpc hp hl hc =>
      have e : (Avr.call s .startNodeSegmentInit y.fw).w = (stepOp (s.ctx y.fw.life) .startNodeSegmentInit y.fw.w).2 :=
        AvrProps.calm_op (s.stack y.fw.life) .startNodeSegmentInit y.fw.w fun rx h => (by cases h)
      have e2 : (stepOp (s.ctx y.fw.life) .startNodeSegmentInit y.fw.w).2 = y.fw.w := by
        show (Core.startNodeSegmentInit (s.ctx y.fw.life) y.fw.w).2 = y.fw.w
        unfold Core.startNodeSegmentInit
        rw [bind_run, get_run, whenM_run, if_neg (by simpa using hst)]
      exact (no hst' (congrArg (fun w => w.v.st) (e.trans e2))).elim
    | due x sw hpc hz hsw hc =>
      obtain ⟨k1, -⟩ := AvrProps.tick_call s 250 y.fw
      have e : (later s y.fw).w = (Avr.call s (.tick 250) y.fw).w := by rw [later_w, call_w]
      rw [← e] at k1
      exact (no hst' (congrArg (·.st) k1)).elim
    | cycle m x hpc hm' hr hc =>
      have e : (Avr.call s (.process m) y.fw).w = (Core.process (s.ctx y.fw.life) m y.fw.w).2 :=
        AvrProps.calm_op (s.stack y.fw.life) (.process m) y.fw.w fun _ _ => .inl (by rw [hst]; decide)
      have hst' : (Avr.call s (.process m) y.fw).w.v.st = .idle := hst'
      rw [e] at hst'
      have key : ∀ {d : Disc}, disc (Core.process (s.ctx y.fw.life) m y.fw.w).2 = d → d.st = .idle := by
        rintro _ rfl
        exact hst'
      have no : (disc y.fw.w).st = .idle → False := fun h => by
        rw [show (disc y.fw.w).st = _ from hst] at h
        cases h
      cases hist : y.fw.w.v.ist with
      | probeMaster =>
        rcases cycle_probeMaster (s.ctx y.fw.life) m y.fw.w hst hist with ⟨-, -, hd⟩ | ⟨-, -, hd⟩
        · have h := key hd
          exact (no h).elim
        · have h := key hd
          exact (no h).elim
      | probeMasterWait =>
        obtain ⟨-, ⟨-, hd⟩ | ⟨-, hd | hd⟩⟩ := cycle_probeMasterWait (s.ctx y.fw.life) m y.fw.w hst hist
        · have h := key hd
          exact (no h).elim
        · have := key hd
          cases this
        · have h := key hd
          exact (no h).elim
      | probe =>
        rcases cycle_probe (s.ctx y.fw.life) m y.fw.w hst hist with ⟨-, -, hd⟩ | ⟨-, hp, ⟨h, -⟩ | ⟨-, hd⟩⟩
        · have h := key hd
          exact (no h).elim
        · exact ⟨⟨hst, .inl hist⟩, h⟩
        · have h := key hd
          exact (no h).elim
      | probeWait =>
        rcases cycle_probeWait (s.ctx y.fw.life) m y.fw.w hst hist with ⟨-, h, -, -⟩ | ⟨-, -, ⟨-, hd⟩ | ⟨hn, hd⟩⟩
        · rw [hst'] at h; cases h
        · have h := key hd
          exact (no h).elim
        · have h := key hd
          exact (no h).elim
  have := scans_run (boot_inv past n ps ctl) (fun h => init_not_init (s.ctx n) allOk (powerUp ps) h.1) _ rfl hl hr key.1
  rw [key.2] at this
  exact this

/-! ### Examples -/

/-- A quarter of a second, and a run of the main loop. -/
def exQuarter : List Move := List.replicate 250 (.tick false) ++ [.step, .step, .step, .step]

def exQuarters (n : Nat) : List Move := (List.replicate n exQuarter).flatten

/-- The acknowledge of a node with the nickname `q`. -/
def exAnswer (q : U8) : Move := .rx (Spec.CanNode.protocol 1 false 3 q [])

/-- An example which looks for a nickname, and hears an answer from the nickname 1. -/
def exTry : List Move := exQuarters 7 ++ [exAnswer 1] ++ exQuarters 9 ++ List.replicate 250 (.tick false)

/-- The hypotheses of `C125_waited` and `C125_lowest` are met: in the next step the example takes the nickname 2. -/
example : (∀ mv ∈ exTry, AvrSys.Ok mv) ∧ AvrSys.Ok .step ∧
    (match run AvrProps.exSurr (fun _ => CanNode.exAround) exTry exLostBoot with
    | .ok y => match run AvrProps.exSurr (fun _ => CanNode.exAround) [.step] y with
      | .ok y' => decide (y.fw.w.v.st = .init ∧ y'.fw.w.v.st = .active ∧ y'.fw.w.v.nick = 2 ∧ y'.fw.life = y.fw.life)
      | _ => false
    | _ => false) = true := by
  refine ⟨?_, trivial, by decide +kernel⟩
  intro mv h
  simp only [exTry, exQuarters, exQuarter, exAnswer, List.mem_append, List.mem_replicate, List.mem_flatten, List.mem_cons, List.not_mem_nil, or_false] at h
  rcases h with ((⟨l, ⟨-, rfl⟩, h⟩ | rfl) | ⟨l, ⟨-, rfl⟩, h⟩) | ⟨-, rfl⟩
  · simp only [List.mem_append, List.mem_replicate, List.mem_cons, List.not_mem_nil, or_false] at h
    rcases h with ⟨-, rfl⟩ | rfl | rfl | rfl | rfl <;> trivial
  · simp [AvrSys.Ok, Spec.CanDrv.Valid, Spec.CanNode.protocol]
  · simp only [List.mem_append, List.mem_replicate, List.mem_cons, List.not_mem_nil, or_false] at h
    rcases h with ⟨-, rfl⟩ | rfl | rfl | rfl | rfl <;> trivial
  · trivial

/-- An example which looks for a nickname, and hears answers from the first `n` nicknames. -/
def exFull (n : Nat) : List Move := exQuarters 7 ++ (List.range n).flatMap fun i => [exAnswer (BitVec.ofNat 8 (i + 1)), .step, .step, .step, .step, .step, .step, .step, .step]

/-- Those of `C125_gave_up`: after answers from all of them it gives up. -/
example : (match run AvrProps.exSurr (fun _ => CanNode.exAround) (exFull 253 ++ [exAnswer 254, .step, .step, .step, .step]) exLostBoot with
    | .ok y => match run AvrProps.exSurr (fun _ => CanNode.exAround) [.step] y with
      | .ok y' => decide (y.fw.w.v.st = .init ∧ y'.fw.w.v.st = .idle ∧ y'.fw.life = y.fw.life)
      | _ => false
    | _ => false) = true := by decide +kernel

end Vscp.Avr.Sys
