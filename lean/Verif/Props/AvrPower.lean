/-
Property theorems: losses of power in a configured segment of AVR examples (C138).
-/
import Verif.Spec.AvrPower
import Verif.Props.AvrLives

namespace Vscp.Avr.Sys
open M Vscp.Driver Vscp.Safety Vscp.Spec Vscp.Wear
open Vscp.Driver.CanNode (Around)

variable {s : Surr} {a : Nat → Around}

theorem first_ps {c : Ctx} (rx : Option Msg) {w : W} (h : w.v.st = .startup) (hn : w.v.nick ≠ 0xFF) : (Core.process c rx w).2.ps = w.ps := by
  rw [process_startup h]
  have p1 := pre_same c rx w .nick (by decide)
  have p3 := pre_same c rx w .ps (by decide)
  simp only [Comp.same] at p1 p3
  generalize (preProcess c rx w).2 = w1 at p1 p3
  have hne : ¬ w1.v.nick = Core.NOT_INIT := by rw [p1]; exact hn
  have e2 : (Core.stateStartup c (Transport.readMessage c rx w).1 w1).2 = (Core.changeToStateActive c w1).2 := by
    unfold Core.stateStartup
    rw [bind_run, get_run]
    dsimp only
    rw [ite_run, if_neg hne]
  rw [e2]
  have := (Foot.changeToStateActive (c := c) (bad := True) (List.Subset.refl _) w1).same .ps (by decide)
  simp only [Comp.same] at this
  rw [this, p3]

/-- No event which changes the memory. -/
def Idle (w : W) (m : Msg) : Prop := m.cls = 0 → m.typ ∉ Spec.AvrSegment.taking ∧ ¬(m.typ = 3 ∧ m.oAddr = w.v.nick)

theorem handler_ps {c : Ctx} (hb : c.bootLoader = false) (hh : c.hbSegment = false) {m : Msg} (hm : m.cls = 0) {w : W} (hi : Idle w m) : (Core.handleProtocolClassType c m w).2.ps = w.ps := by
  obtain ⟨i1, i2⟩ := hi hm
  by_cases hask : Asks c w m
  · rcases hask with ⟨-, h, -⟩ | ⟨h3, h4, h5⟩ | ⟨ht, hp⟩ | h
    · rw [hh] at h; cases h
    · exact absurd ⟨h3, h4⟩ i2
    · have h12 : m.typ = 12 := by
        simp only [Spec.AvrSegment.taking, List.mem_cons, List.not_mem_nil, or_false] at ht i1
        rcases ht with h | h | h | h | h | h | h | h <;> first | exact h | exact absurd h (by simp_all)
      have hs : Steps c True [.tx] w (Core.handleEnterBootLoaderMode c m w).2 := by
        unfold Core.handleEnterBootLoaderMode
        rw [hb]
        exact Foot.bind .get (fun _ => .whenM fun _ => .txVoid (.inl (by simp)) (by decide)) w
      rw [handler12 h12]
      exact hs.same .ps (by decide)
    · exact absurd (by rw [h.1]; decide) i1
  · exact (dry_handler hask).same .ps (by decide)

theorem cycle_ps (k : Nat) (rx : Option Msg) {w : W} (ha : w.v.st = .active) (hi : ∀ m, rx = some m → Idle w m) : (stepOpC (s.ctx k) (s.cb k) (.process rx) w).2.ps = w.ps := by
  cases rx with
  | none =>
    rw [AvrProps.calm_op (s.stack k) (.process none) w fun _ h => .inr (by cases h; rfl)]
    have hr : (Transport.readMessage (s.ctx k) none w).1 = none := rfl
    obtain ⟨w2, hh, h⟩ := active_parts_cycle (c := s.ctx k) (rx := none) ha
    have e2 : w2.ps = w.ps := by
      have p1 : (preProcess (s.ctx k) none w).2.ps = w.ps := pre_same _ _ _ .ps (by decide)
      cases hh with
      | handler m hr' => rw [hr] at hr'; cases hr'
      | other h hs => exact (hs.same .ps (by decide)).trans p1
    rcases h with ⟨-, h⟩ | ⟨m, hm, -⟩
    · show (Core.process (s.ctx k) none w).2.ps = _
      rw [h]
      have hs := Steps.trans (Foot.mono (B := [.customHb, .tx, .tm .heartbeat, .alarm, .appRead, .ext]) (bad := True) (.activeHeartbeat (c := s.ctx k)) (by decide) w2)
        (Foot.mono (bad := True) (.activeExtRead (c := s.ctx k)) (by decide) _)
      exact (hs.same .ps (by decide)).trans e2
    · rw [hr] at hm; cases hm
  | some m =>
    obtain ⟨tp, ub, t, h1, -⟩ := AvrProps.cycle (sz := s.sz) (e := s.env k) (s.stack k) m w ha
    have hs := Steps.trans (Foot.mono (B := [.customHb, .tx, .tm .heartbeat, .alarm, .appRead, .ext]) (bad := True) (.activeHeartbeat (c := Avr.ctx s.sz (s.env k))) (by decide)
        { AvrProps.handled (Avr.ctx s.sz (s.env k)) m w with tp := tp, ub := ub, out := (AvrProps.handled (Avr.ctx s.sz (s.env k)) m w).out ++ t })
      (Foot.mono (bad := True) (.activeExtRead (c := Avr.ctx s.sz (s.env k))) (by decide) _)
    rw [← h1] at hs
    have e1 := hs.same .ps (by decide)
    simp only [Comp.same] at e1
    have p1 : (preProcess (s.ctx k) (some m) w).2.ps = w.ps := pre_same _ _ _ .ps (by decide)
    have p2 : (preProcess (s.ctx k) (some m) w).2.v.nick = w.v.nick := pre_same _ _ _ .nick (by decide)
    refine e1.trans ?_
    by_cases hc : m.cls = 0
    · have eh : AvrProps.handled (Avr.ctx s.sz (s.env k)) m w = (Core.handleProtocolClassType (s.ctx k) m (preProcess (s.ctx k) (some m) w).2).2 := by
        unfold AvrProps.handled
        rw [if_pos hc]
      rw [eh]
      exact (handler_ps (c := s.ctx k) rfl rfl hc (fun h => by rw [p2]; exact hi m rfl h)).trans p1
    · have eh : (AvrProps.handled (Avr.ctx s.sz (s.env k)) m w).ps = (preProcess (s.ctx k) (some m) w).2.ps := by
        unfold AvrProps.handled
        rw [if_neg hc]
        rfl
      rw [eh]
      exact p1

/-- The memory of an active example which stays active and hears no event which changes it. -/
theorem active_ps {q : U8} {y y1 : State} {mv : Move} (hd : Does s a y mv y1) (hm : mv ≠ .power) (h : uses y.fw.w q) (h1 : uses y1.fw.w q) (hi : ∀ m, mv = .step → y1.heard = y.heard ++ [m] → Idle y.fw.w m) :
    y1.fw.w.ps = y.fw.w.ps := by
  cases hd with
  | power => exact absurd rfl hm
  | reset m ctl hpc hm' hr =>
    have := reset_state (c := s.ctx y.fw.life) (cb := s.cb y.fw.life) (AvrProps.cb_ok _) (rx := m) (w := y.fw.w) hr
    rw [h.1] at this
    cases this
  | tick b => rfl
  | rx f x hc => rfl
  | tx x hc => rfl
  | quiet hpc hp => rfl
  | remember hpc => rfl
  | notDue hpc hz => rfl
  | segInit x hpc hp hl hc =>
    have e : (Avr.call s .startNodeSegmentInit y.fw).w = (stepOp (s.ctx y.fw.life) .startNodeSegmentInit y.fw.w).2 :=
      AvrProps.calm_op (s.stack y.fw.life) .startNodeSegmentInit y.fw.w fun rx h => (by cases h)
    have h2 : (Avr.call s .startNodeSegmentInit y.fw).w.v.st = .active := h1.1
    rw [e, ((AvrProps.start_run (s.ctx y.fw.life) y.fw.w).2 (by rw [h.1]; decide)).1] at h2
    cases h2
  | due x sw hpc hz hsw hc =>
    show (later s y.fw).w.ps = _
    rw [later_eq, withLed_w]
    exact (AvrProps.tick_call s 250 y.fw).2.1
  | cycle m x hpc hm' hr hc =>
    show (Avr.call s (.process m) y.fw).w.ps = _
    rw [call_w]
    refine cycle_ps y.fw.life m h.1 fun m' e => hi m' rfl ?_
    subst e
    rfl

theorem waking_ps {q : U8} (hq : q ≠ 0xFF) {y y1 : State} {mv : Move} (hd : Does s a y mv y1) (hm : mv ≠ .power) (h : Waking q y) : y1.fw.w.ps = y.fw.w.ps := by
  have no : ∀ {x : Pc}, y.pc = x → x ≠ .process → False := fun e hx => hx (e ▸ h.pc)
  cases hd with
  | power => exact absurd rfl hm
  | reset m ctl hpc hm' hr =>
    have := reset_state (c := s.ctx y.fw.life) (cb := s.cb y.fw.life) (AvrProps.cb_ok _) (rx := m) (w := y.fw.w) hr
    rw [h.st] at this
    cases this
  | tick b => rfl
  | rx f x hc => rfl
  | tx x hc => rfl
  | quiet hpc hp => exact (no hpc (by decide)).elim
  | remember hpc => exact (no hpc (by decide)).elim
  | notDue hpc hz => exact (no hpc (by decide)).elim
  | segInit x hpc hp hl hc => exact (no hpc (by decide)).elim
  | due x sw hpc hz hsw hc => exact (no hpc (by decide)).elim
  | cycle m x hpc hm' hr hc =>
    have e : (Avr.call s (.process m) y.fw).w = (Core.process (s.ctx y.fw.life) m y.fw.w).2 :=
      AvrProps.calm_op (s.stack y.fw.life) (.process m) y.fw.w fun _ _ => .inl (by rw [h.st]; decide)
    show (Avr.call s (.process m) y.fw).w.ps = _
    rw [e]
    exact first_ps m h.st (by rw [h.nick]; exact hq)

end Vscp.Avr.Sys

namespace Vscp.AvrSegment
open Vscp.Driver Vscp.Avr Vscp.Avr.Sys Vscp.CanSegment Vscp.Spec.AvrSegment
open Vscp.CanDrvProps Vscp.Safety
open Vscp.Spec (uses)

section
variable {ι : Type} [DecidableEq ι] {p : Parts ι}

/-- What an example does not hear as long as nobody else disturbs. -/
theorem hears_idle (htx : ∀ i n k, ((p.surr i).env n).txOk k = true) (ps : ι → Nat → U8) (ctl : ι → CanDrv.State) {l : List (Move ι)} {mv : Move ι}
    (hl : ∀ mv' ∈ l ++ [mv], Spec.AvrSegment.Ok mv') (ht : InTurn (fun _ => 0) (l ++ [mv])) {s s' : Segment ι} (e : Spec.AvrSegment.run p l (start p ps ctl) = .ok s)
    (e' : Spec.AvrSegment.step p s mv = .ok s') {d : ι} {q : U8} (hf : Harmless q l) (ho : ∀ a, a ≠ d → ∀ pre post s1, l = pre ++ post → Spec.AvrSegment.run p pre (start p ps ctl) = .ok s1 → ¬uses (s1.node a).fw.w q)
    (hmv : mv = .own d .step) (hlife : (s'.node d).fw.life = (s.node d).fw.life) {m : Msg} (hh : (s'.node d).heard = (s.node d).heard ++ [m]) (h0 : m.cls = 0) :
    m.typ ∉ taking ∧ ¬(m.typ = 3 ∧ m.oAddr = q) := by
  have hl1 := fun mv h => hl mv (List.mem_append_left _ h)
  have hm := hl mv (List.mem_append_right _ (List.mem_singleton_self _))
  obtain ⟨-, -, u, hs, hu1⟩ := sane_run htx l [mv] (sane_start htx ps ctl) (fitting_start ps ctl) hl1 ht e
  constructor
  · intro htk
    have hq : ∀ mv' ∈ l, Spec.AvrSegment.Ok mv' ∧ ∀ i b, mv' = .own i (.rx b) → ¬Spec.CanSegment.Tells m.typ b :=
      fun mv' h => ⟨hl1 mv' h, fun i b hi hb => (hf b ⟨i, hi ▸ h⟩).2 m.typ htk hb⟩
    have hk := taking_alien _ htk
    have hun := untold_run hk htx l (sane_start htx ps ctl) hq (turn_front l ht) (untold_start (p := parts p) (fun _ => allOk) ps ctl) e
    rcases (sim_step htx hs hm hu1.1 e').2 with h2 | ⟨cmv, h2, hfit⟩
    · have : (s'.node d).heard = (s.node d).heard := congrArg (fun x => ((Spec.CanSegment.Segment.node x) d).heard) h2
      rw [this] at hh
      have := congrArg List.length hh
      simp at this
    · exact heard_untold hk (proper htx) (fun i k => app_spare (p.surr i) k) hs.sound hun hfit.ok (fits_discreet hfit fun i b hi => by rw [hmv] at hi; cases hi) h2 (d := d) hlife hh ⟨h0, rfl⟩
  · rintro ⟨h3, hq⟩
    have hb := founded_run htx (F := fun q => ∃ b, Foreign l b ∧ Spec.CanSegment.Answers b q) (H := fun a q => ∃ pre post s1, l = pre ++ post ∧ Spec.AvrSegment.run p pre (start p ps ctl) = .ok s1 ∧ uses (s1.node a).fw.w q)
      l (sane_start htx ps ctl) (founded_start (p := parts p) _ _ (fun _ => allOk) ps ctl) hl1 (fun b hb q hq => ⟨b, hb, hq⟩) (turn_front l ht) (fun pre post s1 e1 e2 a q hu => ⟨pre, post, s1, e1, e2, hu⟩) e
    have hb' : Founded (fun q => ∃ b, Foreign l b ∧ Spec.CanSegment.Answers b q) (fun a q => ∃ pre post s1, l = pre ++ post ∧ Spec.AvrSegment.run p pre (start p ps ctl) = .ok s1 ∧ uses (s1.node a).fw.w q) (seg s') := by
      rcases (sim_step htx hs hm hu1.1 e').2 with h2 | ⟨cmv, h2, hf⟩
      · rw [h2]; exact hb
      · exact founded_step (proper htx) (fun i k => reports _ _) hs.sound hb (fun a q hu => ⟨l, [], s, by simp, e, hu⟩) hf.ok (fun i b hc => by have := hf.outside i b hc; rw [hmv] at this; cases this) hf.calls h2
    rcases hb'.heard d m (by show m ∈ (s'.node d).heard; rw [hh]; simp) q ⟨h0, h3, hq⟩ with ⟨b, hb⟩ | ⟨a, ha, pre, post, s1, r1, r2, r3⟩
    · exact (hf b hb.1).1 hb.2
    · exact ho a ha pre post s1 r1 r2 r3

/-- What holds of an example in a configured segment. -/
def Secure (ps : ι → Nat → U8) (f : ι → U8) (l : List (Move ι)) (s : Segment ι) : Prop :=
  ∀ i, (s.node i).fw.life = losses i l ∧ (s.node i).fw.w.ps = ps i ∧ ((awake i l = true ∧ uses (s.node i).fw.w (f i)) ∨ (awake i l = false ∧ Waking (f i) (s.node i)))

theorem awake_other {i : ι} {l : List (Move ι)} {mv : Move ι} (h1 : mv ≠ .own i .step) (h2 : mv ≠ .own i .power) : awake i (l ++ [mv]) = awake i l ∧ losses i (l ++ [mv]) = losses i l := by
  unfold awake losses
  rw [List.foldl_append, List.foldl_append]
  cases mv with
  | deliver j => exact ⟨rfl, rfl⟩
  | own j c =>
    by_cases hj : j = i
    · subst hj
      cases c with
      | step => exact absurd rfl h1
      | power => exact absurd rfl h2
      | _ => exact ⟨rfl, rfl⟩
    · cases c <;> simp [hj]

theorem losses_step {i : ι} {l : List (Move ι)} : losses i (l ++ [.own i .step]) = losses i l := by
  unfold losses
  rw [List.foldl_append]
  rfl

theorem awake_step {i : ι} {l : List (Move ι)} : awake i (l ++ [.own i .step]) = true := by
  unfold awake
  rw [List.foldl_append]
  simp

theorem after_power {i : ι} {l : List (Move ι)} : awake i (l ++ [.own i .power]) = false ∧ losses i (l ++ [.own i .power]) = losses i l + 1 := by
  unfold awake losses
  rw [List.foldl_append, List.foldl_append]
  simp

theorem secure (htx : ∀ i n k, ((p.surr i).env n).txOk k = true) (ps : ι → Nat → U8) (ctl : ι → CanDrv.State) {f : ι → U8} (hc : Configured p ps f) : ∀ (n : Nat) (l : List (Move ι)), l.length ≤ n →
    Unharmed f l → ∀ {s : Segment ι}, Spec.AvrSegment.run p l (start p ps ctl) = .ok s → Secure ps f l s := by
  have born : ∀ i past n ctl', (boot (p.surr i) past n (ps i) ctl').fw.w.ps = ps i ∧ Waking (f i) (boot (p.surr i) past n (ps i) ctl') := by
    intro i past n ctl'
    obtain ⟨h1, h2, h3⟩ := AvrProps.C90_kept (p.surr i) past n (ps i) (hc.valid i)
    exact ⟨h1, ⟨h3, h2.trans (hc.nick i), rfl⟩⟩
  intro n
  induction n with
  | zero =>
    intro l hn _ s e i
    cases List.length_eq_zero_iff.1 (Nat.le_zero.1 hn)
    cases e
    obtain ⟨h1, h2⟩ := born i [] 0 (ctl i)
    exact ⟨rfl, h1, .inr ⟨rfl, h2⟩⟩
  | succ n ih =>
    intro l hn hu s e
    rcases List.eq_nil_or_concat l with rfl | ⟨l, mv, rfl⟩
    · exact ih [] (Nat.zero_le _) hu e
    simp only [List.concat_eq_append] at *
    have hsub : ∀ l1 l2, l = l1 ++ l2 → ∀ {s1 : Segment ι}, Spec.AvrSegment.run p l1 (start p ps ctl) = .ok s1 → Secure ps f l1 s1 := by
      rintro l1 l2 rfl s1 e1
      refine ih l1 (by simp only [List.length_append, List.length_singleton] at hn; omega) ⟨fun mv h => hu.ok mv (by simp [h]), turn_front l1 (by have := hu.turn; rw [List.append_assoc] at this; exact this), ?_, ?_⟩ e1
      · rintro j b ⟨i, h⟩; exact hu.harmless j b ⟨i, by simp [h]⟩
      · rintro i ⟨x, y, h⟩
        refine hu.button i ⟨x, y ++ Spec.AvrSys.button (mine i (l2 ++ [mv])), ?_⟩
        rw [List.append_assoc, mine_append, button_append, h, List.append_assoc (x ++ _)]
    have hno : ∀ i a, a ≠ i → ∀ pre post s1, l = pre ++ post → Spec.AvrSegment.run p pre (start p ps ctl) = .ok s1 → ¬uses (s1.node a).fw.w (f i) := by
      intro i a had l1 l2 s2 r1 r2 r3
      rcases (hsub l1 l2 r1 r2 a).2.2 with h | h
      · exact had (hc.diff _ _ (h.2.2.symm.trans r3.2))
      · have := h.2.st
        rw [r3.1] at this
        cases this
    obtain ⟨s1, e1, e2⟩ := split_last l e
    have h1 := hsub l [] (by simp) e1
    have hl1 := fun mv h => hu.ok mv (List.mem_append_left _ h)
    have hm := hu.ok mv (by simp)
    obtain ⟨-, -, u, hs, hu1⟩ := sane_run htx l [mv] (sane_start htx ps ctl) (fitting_start ps ctl) hl1 hu.turn e1
    have hfl : ∀ i, Harmless (f i) l := fun i b ⟨j, h⟩ => hu.harmless i b ⟨j, List.mem_append_left _ h⟩
    intro i
    obtain ⟨g1, g0, g2⟩ := h1 i
    rcases own_move hs hm e2 i with ⟨h, hno'⟩ | ⟨smv, hok, hr, hlike⟩
    · rw [h]
      have ho := awake_other (i := i) (l := l) (mv := mv) (by rintro rfl; simp [mine, noRx] at hno') (by rintro rfl; simp [mine, noRx] at hno')
      rw [ho.1, ho.2]
      exact ⟨g1, g0, g2⟩
    · obtain ⟨y1, hd, -, hr1⟩ := run_does (l := []) (hs.inv i) (by simp) hok hr
      cases hr1
      by_cases hpw : smv = .power
      · subst hpw
        cases own_is hlike rfl
        generalize s.node i = z at hd ⊢
        cases hd with
        | power =>
          have ap := after_power (i := i) (l := l)
          obtain ⟨b1, b2⟩ := born i ((s1.node i).fw.past ++ (s1.node i).fw.w.out) ((s1.node i).fw.life + 1) (s1.node i).x.1
          have hz : Sys.reboot (p.surr i) (s1.node i) = boot (p.surr i) ((s1.node i).fw.past ++ (s1.node i).fw.w.out) ((s1.node i).fw.life + 1) (ps i) (s1.node i).x.1 := by rw [Sys.reboot, g0]
          rw [ap.1, ap.2, hz]
          exact ⟨congrArg (· + 1) g1, b1, .inr ⟨rfl, b2⟩⟩
      · have hnp : mv ≠ .own i .power := by
          rintro rfl
          simp only [mine, if_pos] at hlike
          cases smv <;> simp [noRx] at hlike
          exact hpw rfl
        have hloss : losses i (l ++ [mv]) = losses i l := by
          by_cases hst : mv = .own i .step
          · subst hst; exact losses_step
          · exact (awake_other hst hnp).2
        rw [hloss]
        rcases g2 with ⟨k0, g2⟩ | ⟨k1, k2⟩
        · have hlife := active_life hd hpw g2
          have hstay : uses (s.node i).fw.w (f i) := by
            refine Classical.byContradiction fun hn' => ?_
            cases C135_cause htx ps ctl l mv hu.ok hu.turn e1 e2 g2 hn' with
            | power h => exact hnp h
            | button h hb hs =>
              obtain ⟨x, hx⟩ := hb
              refine hu.button i ⟨x, Spec.AvrSys.button (mine i [mv]), ?_⟩
              rw [mine_append, button_append, hx]
            | «example» m h hm hk a had hH =>
              obtain ⟨l1, l2, s2, r1, r2, r3⟩ := hH
              exact hno i a had l1 l2 s2 r1 r2 r3
            | answer m h hm hk b hb => exact (hfl i b hb.1).1 hb.2
            | foreign m h hm hk b hb hd => exact (hfl i b hb.1).2 m.typ hk.2 hb.2
          refine ⟨hlife.trans g1, ?_, .inl ⟨?_, hstay⟩⟩
          case refine_2 =>
            by_cases hst : mv = .own i .step
            · subst hst; exact awake_step
            · exact (awake_other hst hnp).1.trans k0
          refine (active_ps hd hpw g2 hstay fun m hst hh h0 => ?_).trans g0
          subst hst
          rw [g2.2]
          exact hears_idle htx ps ctl hu.ok hu.turn e1 e2 (hfl i) (hno i) (own_is hlike rfl) hlife hh h0
        · obtain ⟨r1, r2⟩ := waking_does (hc.has i) hd hpw k2
          refine ⟨r1.trans g1, (waking_ps (hc.has i) hd hpw k2).trans g0, r2.imp (fun ⟨k3, k4⟩ => ⟨?_, k4⟩) fun ⟨k3, k4⟩ => ⟨?_, k4⟩⟩
          · subst k3
            cases own_is hlike rfl
            exact awake_step
          have hns : mv ≠ .own i .step := by
            rintro rfl
            simp only [mine, if_pos] at hlike
            cases smv <;> simp [noRx] at hlike
            exact k3 rfl
          rw [(awake_other hns hnp).1]
          exact k1

/-- C138: AVR examples on a CAN bus, each of them as a whole, with different nicknames in their memories, whatever they send to each other and whenever they lose their power.  The memory of each of them stays as it is; each
restarts by losses of its power only; and it uses the nickname from its memory again from the first step of its main loop after one on, not earlier, as long as no button is held for 101 ms, and something else than the examples neither answers
probes under one of the nicknames nor sends events which take nicknames.  Provided that the adapters take the events, and the main loop of each example runs once between two frames of others. -/
theorem C138_power (htx : ∀ i n k, ((p.surr i).env n).txOk k = true) (ps : ι → Nat → U8) (ctl : ι → CanDrv.State) {f : ι → U8} (hc : Configured p ps f) (l : List (Move ι)) (hu : Unharmed f l) {s : Segment ι}
    (e : Spec.AvrSegment.run p l (start p ps ctl) = .ok s) (i : ι) :
    (s.node i).fw.w.ps = ps i ∧ (s.node i).fw.life = losses i l ∧ (awake i l = true ↔ uses (s.node i).fw.w (f i)) := by
  obtain ⟨h1, h0, h2⟩ := secure htx ps ctl hc l.length l (Nat.le_refl _) hu e i
  refine ⟨h0, h1, ?_⟩
  rcases h2 with h2 | h2
  · exact ⟨fun _ => h2.2, fun _ => h2.1⟩
  · refine ⟨fun hm => ?_, fun hm => ?_⟩
    · rw [h2.1] at hm; cases hm
    · have := hm.1
      rw [h2.2.st] at this
      cases this

end

/-- Both examples announce themselves; the second one loses its power. -/
def exLost : List (Move Bool) := exNews ++ [.own false .power] ++ exLoop false ++ exWhile

/-- The hypotheses of `C138_power` are met by two examples with the nicknames 5 and 6. -/
example : Configured exParts (CanSegment.exMems 5 6) (fun i => if i then 5 else 6) ∧ Unharmed (fun i : Bool => if i then 5 else 6) exLost ∧
    (exLook (Spec.AvrSegment.run exParts exLost (exStart 5 6))).isSome = true ∧ losses false exLost = 1 ∧ awake false exLost = true ∧ awake false (exLost.take (exNews.length + 1)) = false := by
  refine ⟨⟨by decide +kernel, by decide +kernel, by decide +kernel, by decide +kernel⟩, ⟨fun mv h => (exAlone_ok (by decide +kernel) mv h).1, exTurn_ok _ _ (by decide +kernel), ?_, ?_⟩,
    by decide +kernel, by decide +kernel, by decide +kernel, by decide +kernel⟩
  · rintro j b ⟨i, h⟩
    have : exLost.all exAlone = true := by decide +kernel
    cases List.all_eq_true.1 this _ h
  · rintro i ⟨x, y, h⟩
    have := congrArg List.length h
    have hle : ∀ i, (Spec.AvrSys.button (mine i exLost)).length = 1 := by decide +kernel
    rw [hle] at this
    simp only [List.length_append, List.length_replicate] at this
    omega

end Vscp.AvrSegment
