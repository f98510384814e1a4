/-
Property theorems: the announcements in a configured segment of AVR examples (C140).
-/
import Verif.Spec.AvrOnline
import Verif.Props.AvrReturn
import Verif.Props.Alarm

namespace Vscp.Avr.Sys
open M Vscp.Driver Vscp.Safety Vscp.Spec Vscp.Wear
open Vscp.Driver.CanNode (Around)

variable {s : Surr} {a : Nat → Around}

/-- What a node sends in its first cycle, if it has a nickname. -/
theorem first_out {c : Ctx} (rx : Option Msg) {w : W} {q : U8} (h : w.v.st = .startup) (hn : w.v.nick = q) (hq : q ≠ 0xFF) :
    ∃ r, (Core.process c rx w).2.out = w.out ++ [.lamp .on, .tx (event c q 0 2 [q]) r] := by
  rw [process_startup h]
  have p1 : (preProcess c rx w).2.v.nick = w.v.nick := pre_same c rx w .nick (by decide)
  have p2 : (preProcess c rx w).2.v.st = w.v.st := pre_same c rx w .st (by decide)
  have p4 : (preProcess c rx w).2.out = w.out := pre_out c rx w
  generalize (preProcess c rx w).2 = w1 at p1 p2 p4
  have hne : ¬ w1.v.nick = Core.NOT_INIT := by rw [p1, hn]; exact hq
  have e2 : (Core.stateStartup c (Transport.readMessage c rx w).1 w1).2 = (Core.changeToStateActive c w1).2 := by
    unfold Core.stateStartup
    rw [bind_run, get_run]
    dsimp only
    rw [ite_run, if_neg hne]
  rw [e2, ← p4, ← hn, ← p1]
  unfold Core.changeToStateActive
  simp only [bind_run, get_run, whenM_run, if_pos (show w1.v.st ≠ .active by rw [p2, h]; exact fun h => (by cases h)), emit_run, setV_run]
  rw [txVoid_run _ _ _ _ (by simp)]
  refine ⟨c.txOk (w1.out ++ [Out.lamp Lamp.on]).length, ?_⟩
  split
  · rw [timerStart_run]
    dsimp only
    split <;> simp
  · simp

theorem waking_out {q : U8} (hq : q ≠ 0xFF) {y y1 : State} (hd : Does s a y .step y1) (h : Waking q y) : ∃ r, y1.fw.w.out = y.fw.w.out ++ [.lamp .on, .tx (event (s.ctx y.fw.life) q 0 2 [q]) r] := by
  have no : ∀ {x : Pc}, y.pc = x → x ≠ .process → False := fun e hx => hx (e ▸ h.pc)
  cases hd with
  | reset m ctl hpc hm' hr =>
    have := reset_state (c := s.ctx y.fw.life) (cb := s.cb y.fw.life) (AvrProps.cb_ok _) (rx := m) (w := y.fw.w) hr
    rw [h.st] at this
    cases this
  | quiet hpc hp => exact (no hpc (by decide)).elim
  | remember hpc => exact (no hpc (by decide)).elim
  | notDue hpc hz => exact (no hpc (by decide)).elim
  | segInit x hpc hp hl hc => exact (no hpc (by decide)).elim
  | due x sw hpc hz hsw hc => exact (no hpc (by decide)).elim
  | cycle m x hpc hm' hr hc =>
    have e : (Avr.call s (.process m) y.fw).w = (Core.process (s.ctx y.fw.life) m y.fw.w).2 :=
      AvrProps.calm_op (s.stack y.fw.life) (.process m) y.fw.w fun _ _ => .inl (by rw [h.st]; decide)
    show ∃ r, (Avr.call s (.process m) y.fw).w.out = _
    rw [e]
    exact first_out m h.st h.nick hq

end Vscp.Avr.Sys

namespace Vscp.AvrSegment
open Vscp.Driver Vscp.Avr Vscp.Avr.Sys Vscp.CanSegment Vscp.Spec.AvrSegment
open Vscp.CanDrvProps Vscp.Safety
open Vscp.Spec (uses SameEvent event)
open Vscp.Spec.CanNode (taken)

section
variable {ι : Type} [DecidableEq ι] {p : Parts ι}

/-- An event which an example sends is heard by each other one. -/
theorem taken_heard (htx : ∀ i n k, ((p.surr i).env n).txOk k = true) (ps : ι → Nat → U8) (ctl : ι → CanDrv.State) (pre : List (Move ι)) (mv : Move ι) (l : List (Move ι))
    (hl : ∀ mv' ∈ pre ++ mv :: l, Spec.AvrSegment.Ok mv') (ht : InTurn (fun _ => 0) (pre ++ mv :: l)) {s0 s1 s : Segment ι} (e0 : Spec.AvrSegment.run p pre (start p ps ctl) = .ok s0)
    (e1 : Spec.AvrSegment.step p s0 mv = .ok s1) (e : Spec.AvrSegment.run p l s1 = .ok s) {a b : ι} (hab : a ≠ b) (hla : (s.node a).fw.life = (s0.node a).fw.life)
    (hlb : (s.node b).fw.life = (s0.node b).fw.life) (ha : Silent s a) (hb : Silent s b) {m : Msg} (hm : m ∈ taken ((s1.node a).fw.w.out.drop (s0.node a).fw.w.out.length)) :
    ∃ g ∈ (s.node b).heard.drop (s1.node b).heard.length, SameEvent m g := by
  have hpre := fun mv' h => hl mv' (List.mem_append_left _ h)
  have hsm := hl mv (List.mem_append_right _ (List.mem_cons_self ..))
  have hlm := fun mv' h => hl mv' (List.mem_append_right _ (List.mem_cons_of_mem _ h))
  obtain ⟨hf1, -, u1, hs1, ht1⟩ := sane_run htx pre (mv :: l) (sane_start htx ps ctl) (fitting_start ps ctl) hpre ht e0
  obtain ⟨hs2, h5⟩ := sim_step htx hs1 hsm ht1.1 e1
  have hf2 : Fitting (seg s1) := by
    rcases h5 with h5 | ⟨cmv, h5, h6⟩
    · rw [h5]; exact hf1
    · exact fitting_step htx hs1.sound hf1 h6.ok h6.calls h5
  have b2 := life_own htx hs1 hsm ht1.1 e1 b
  obtain ⟨n1, n2, s3, s4, k1, k2, k3, k4, m', t', k5, k6, -⟩ := C129_acts htx ps ctl pre mv l hl ht e0 e1 e hab hla hlb ha hb hm
  refine ⟨m', ?_, k5⟩
  have ht2 : InTurn (next u1 mv) (n1 ++ .own b .step :: n2) := by rw [← k1]; exact ht1.2
  have hn1 : ∀ mv ∈ n1, Spec.AvrSegment.Ok mv := fun mv h => hlm mv (by rw [k1]; exact List.mem_append_left _ h)
  have hn2 : ∀ mv ∈ n2, Spec.AvrSegment.Ok mv := fun mv h => hlm mv (by rw [k1]; exact List.mem_append_right _ (List.mem_cons_of_mem _ h))
  obtain ⟨hf3, lv4, u3, hs3, ht3⟩ := sane_run htx n1 (.own b .step :: n2) hs2 hf2 hn1 ht2 k2
  obtain ⟨hf4, lv5, u4, hs4, ht4⟩ := sane_run htx [.own b .step] n2 hs3 hf3 (by intro mv h; cases List.mem_singleton.1 h; trivial) ht3 (run_one k3)
  have lv6 := (sane_run htx n2 [] hs4 hf4 hn2 (by simpa using ht4) k4).2.1 b
  have b4 := lv4 b
  have b5 := lv5 b
  obtain ⟨v, hv⟩ := heard_kept htx (j := b) n2 hs4 hf4 hn2 ht4 (by omega) k4
  obtain ⟨w, hw⟩ := heard_kept htx (j := b) n1 hs2 hf2 hn1 (turn_front n1 ht2) (by omega) k2
  rw [hv, k6, hw, List.append_assoc, List.append_assoc, List.drop_left]
  simp

theorem online_same {n : U8} {m g : Msg} (h : Online n m) (hg : SameEvent m g) : Online n g :=
  ⟨hg.cls.trans h.cls, hg.typ.trans h.typ, hg.prio.trans h.prio, hg.origin.trans h.origin, hg.hard.trans h.hard, Eq.trans hg.data h.data⟩

/-- C140: AVR examples on a CAN bus, each of them as a whole, with different nicknames in their memories, which lose their power whenever and however often.  In the first step of its main loop after each loss of power, and after the
first start, example `a` sends one event, "new node on line" with the nickname from its memory; and each other example `b` has heard it since then as soon as nothing is on the way from and to both (at the end of any further
history `l`), if both have had power since then. -/
theorem C140_online (htx : ∀ i n k, ((p.surr i).env n).txOk k = true) (ps : ι → Nat → U8) (ctl : ι → CanDrv.State) {f : ι → U8} (hc : Configured p ps f) (pre l : List (Move ι)) {a : ι} (hu : Unharmed f (pre ++ .own a .step :: l))
    {s0 s1 s : Segment ι} (e0 : Spec.AvrSegment.run p pre (start p ps ctl) = .ok s0) (e1 : Spec.AvrSegment.step p s0 (.own a .step) = .ok s1) (e : Spec.AvrSegment.run p l s1 = .ok s) (ha : awake a pre = false) :
    ∃ m, taken ((s1.node a).fw.w.out.drop (s0.node a).fw.w.out.length) = [m] ∧ Online (f a) m ∧
      ∀ b, b ≠ a → .own a .power ∉ l → .own b .power ∉ l → Silent s a → Silent s b → ∃ g ∈ (s.node b).heard.drop (s1.node b).heard.length, Online (f a) g := by
  have h0 := secure htx ps ctl hc pre.length pre (Nat.le_refl _) (unharmed_front hu) e0
  have hw : Waking (f a) (s0.node a) := by
    rcases (h0 a).2.2 with h | h
    · rw [ha] at h; cases h.1
    · exact h.2
  have hm := hu.ok (.own a .step) (by simp)
  obtain ⟨-, -, u, hs, hu1⟩ := sane_run htx pre (.own a .step :: l) (sane_start htx ps ctl) (fitting_start ps ctl) (fun mv h => hu.ok mv (List.mem_append_left _ h)) hu.turn e0
  obtain ⟨m, hout, hon⟩ : ∃ m, taken ((s1.node a).fw.w.out.drop (s0.node a).fw.w.out.length) = [m] ∧ Online (f a) m := by
    rcases own_move hs hm e1 a with ⟨-, hno⟩ | ⟨smv, hok, hr, hlike⟩
    · simp [mine, noRx] at hno
    · have : smv = .step := by
        simp only [mine, if_pos] at hlike
        cases smv <;> simp [noRx] at hlike
        rfl
      subst this
      obtain ⟨y1, hd, -, hr1⟩ := run_does (l := []) (hs.inv a) (by simp) hok hr
      cases hr1
      obtain ⟨r, hr⟩ := waking_out (hc.has a) hd hw
      have hlife := (waking_does (hc.has a) hd (fun h => (by cases h)) hw).1
      have hr' : r = true := does_taken (hs.inv a) hd hlife (htx a _) hr (List.mem_cons_of_mem _ (List.mem_singleton_self _))
      subst hr'
      refine ⟨_, by rw [hr, List.drop_left]; rfl, ⟨rfl, rfl, rfl, rfl, rfl, Vscp.Alarm.payload_event _ _ _ _ _ (by simp)⟩⟩
  refine ⟨m, hout, hon, fun b hb hpa hpb hsa hsb => ?_⟩
  have e' : Spec.AvrSegment.run p (pre ++ .own a .step :: l) (start p ps ctl) = .ok s := run_both pre (.own a .step :: l) e0 ((run_one e1).trans e)
  have h1 := secure htx ps ctl hc _ _ (Nat.le_refl _) hu e'
  have keep : ∀ i, .own i .power ∉ l → (s.node i).fw.life = (s0.node i).fw.life := fun i hi => by
    rw [(h1 i).1, (h0 i).1, (powered (.own a .step :: l) pre (by simpa using hi)).1]
  obtain ⟨g, hg, hgm⟩ := taken_heard htx ps ctl pre (.own a .step) l hu.ok hu.turn e0 e1 e (Ne.symm hb) (keep a hpa) (keep b hpb) hsa hsb (m := m) (by rw [hout]; exact List.mem_singleton_self _)
  exact ⟨g, hg, online_same hon hgm⟩

end

/-- Both examples announce themselves, and the second one loses its power. -/
def exDark : List (Move Bool) := exNews ++ [.own false .power]

/-- Its frame gets to the first one. -/
def exAgain : List (Move Bool) := exLoop false ++ exSend false ++ exLoop true

/-- The hypotheses of `C140_online` are met by two examples with the nicknames 5 and 6: the second one loses its power, begins again, and nothing is on the way afterwards. -/
example : Configured exParts (CanSegment.exMems 5 6) (fun i => if i then 5 else 6) ∧ Unharmed (fun i : Bool => if i then 5 else 6) (exDark ++ .own false .step :: exAgain) ∧ awake false exDark = false ∧
    losses false exDark = 1 ∧ (.own false .power ∉ exAgain ∧ .own true .power ∉ exAgain) ∧
    exLook (Spec.AvrSegment.run exParts (exDark ++ .own false .step :: exAgain) (exStart 5 6)) = some [(true, 5, true), (true, 6, true)] := by
  refine ⟨⟨by decide +kernel, by decide +kernel, by decide +kernel, by decide +kernel⟩, ⟨fun mv h => (exAlone_ok (by decide +kernel) mv h).1, exTurn_ok _ _ (by decide +kernel), ?_, ?_⟩,
    by decide +kernel, by decide +kernel, by simp [exAgain, exLoop, exSend], by decide +kernel⟩
  · rintro j b ⟨i, h⟩
    have : (exDark ++ .own false .step :: exAgain).all exAlone = true := by decide +kernel
    cases List.all_eq_true.1 this _ h
  · rintro i ⟨x, y, h⟩
    have := congrArg List.length h
    have hle : ∀ i, (Spec.AvrSys.button (mine i (exDark ++ .own false .step :: exAgain))).length = 0 := by decide +kernel
    rw [hle] at this
    simp only [List.length_append, List.length_replicate] at this
    omega

end Vscp.AvrSegment
