/-
Property theorems: AVR examples on a CAN bus with different nicknames stay as they are (C136).
-/
import Verif.Spec.AvrStable
import Verif.Props.AvrSegKeep
import Verif.Props.AvrFw
import Verif.Props.Program

namespace Vscp.Avr.Sys
open M Vscp.Driver Vscp.Safety Vscp.Spec
open Vscp.Driver.CanNode (Around)

variable {s : Surr} {a : Nat → Around}

/-- A node with a nickname gets active in its first cycle. -/
theorem first_cycle {c : Ctx} (rx : Option Msg) {w : W} {q : U8} (h : w.v.st = .startup) (hn : w.v.nick = q) (hq : q ≠ 0xFF) : uses (Core.process c rx w).2 q := by
  rw [process_startup h]
  have p1 := pre_same c rx w .nick (by decide)
  simp only [Comp.same] at p1
  generalize (preProcess c rx w).2 = w1 at p1
  have hne : ¬ w1.v.nick = Core.NOT_INIT := by rw [p1, hn]; exact hq
  have e2 : (Core.stateStartup c (Transport.readMessage c rx w).1 w1).2 = (Core.changeToStateActive c w1).2 := by
    unfold Core.stateStartup
    rw [bind_run, get_run]
    dsimp only
    rw [ite_run, if_neg hne]
  rw [e2]
  refine ⟨Probe.active_st c w1, ?_⟩
  have := (Foot.changeToStateActive (c := c) (bad := True) (List.Subset.refl _) w1).same .nick (by decide)
  simp only [Comp.same] at this
  rw [this, p1, hn]

/-- Before the first cycle. -/
structure Waking (q : U8) (y : State) : Prop where
  st : y.fw.w.v.st = .startup
  nick : y.fw.w.v.nick = q
  pc : y.pc = .process

theorem waking_does {q : U8} (hq : q ≠ 0xFF) {y y1 : State} {mv : Move} (hd : Does s a y mv y1) (hm : mv ≠ .power) (h : Waking q y) :
    y1.fw.life = y.fw.life ∧ ((mv = .step ∧ uses y1.fw.w q) ∨ (mv ≠ .step ∧ Waking q y1)) := by
  have no : ∀ {x : Pc}, y.pc = x → x ≠ .process → False := fun e hx => hx (e ▸ h.pc)
  cases hd with
  | tick b => exact ⟨rfl, .inr ⟨fun e => (by cases e), ⟨h.st, h.nick, h.pc⟩⟩⟩
  | power => exact absurd rfl hm
  | reset m ctl hpc hm' hr =>
    have := reset_state (c := s.ctx y.fw.life) (cb := s.cb y.fw.life) (AvrProps.cb_ok _) (rx := m) (w := y.fw.w) hr
    rw [h.st] at this
    cases this
  | rx f x hc => exact ⟨rfl, .inr ⟨fun e => (by cases e), ⟨h.st, h.nick, h.pc⟩⟩⟩
  | tx x hc => exact ⟨rfl, .inr ⟨fun e => (by cases e), ⟨h.st, h.nick, h.pc⟩⟩⟩
  | quiet hpc hp => exact (no hpc (by decide)).elim
  | remember hpc => exact (no hpc (by decide)).elim
  | notDue hpc hz => exact (no hpc (by decide)).elim
  | segInit x hpc hp hl hc => exact (no hpc (by decide)).elim
  | due x sw hpc hz hsw hc => exact (no hpc (by decide)).elim
  | cycle m x hpc hm' hr hc =>
    refine ⟨rfl, .inl ⟨rfl, ?_⟩⟩
    have e : (Avr.call s (.process m) y.fw).w = (Core.process (s.ctx y.fw.life) m y.fw.w).2 :=
      AvrProps.calm_op (s.stack y.fw.life) (.process m) y.fw.w fun _ _ => .inl (by rw [h.st]; decide)
    show uses (Avr.call s (.process m) y.fw).w q
    rw [e]
    exact first_cycle m h.st h.nick hq

/-- An active example does not restart but for a loss of power. -/
theorem active_life {q : U8} {y y1 : State} {mv : Move} (hd : Does s a y mv y1) (hm : mv ≠ .power) (h : uses y.fw.w q) : y1.fw.life = y.fw.life := by
  cases hd with
  | power => exact absurd rfl hm
  | reset m ctl hpc hm' hr =>
    have := reset_state (c := s.ctx y.fw.life) (cb := s.cb y.fw.life) (AvrProps.cb_ok _) (rx := m) (w := y.fw.w) hr
    rw [h.1] at this
    cases this
  | tick b => rfl
  | rx f x hc => rfl
  | tx x hc => rfl
  | quiet hpc hp => rfl
  | remember hpc => rfl
  | notDue hpc hz => rfl
  | segInit x hpc hp hl hc => rfl
  | due x sw hpc hz hsw hc => exact later_life _
  | cycle m x hpc hm' hr hc => rfl

end Vscp.Avr.Sys

namespace Vscp.AvrSegment
open Vscp.Driver Vscp.Avr Vscp.Avr.Sys Vscp.CanSegment Vscp.Spec.AvrSegment
open Vscp.CanDrvProps Vscp.Safety
open Vscp.Spec (uses)

section
variable {ι : Type} [DecidableEq ι] {p : Parts ι}

theorem own_is {mv : Move ι} {d : ι} {smv : Sys.Move} (hlike : noRx [smv] = noRx (mine d [mv])) (h : noRx [smv] = [smv]) : mv = .own d smv := by
  rw [h] at hlike
  cases mv with
  | deliver i => cases hlike
  | own i c =>
    by_cases hi : i = d
    · subst hi
      simp only [mine, if_pos] at hlike
      cases c <;> simp only [noRx, List.cons.injEq, and_true] at hlike <;> first | rw [hlike] | cases hlike
    · simp only [mine, if_neg hi, noRx] at hlike; cases hlike

theorem split_last : ∀ (l : List (Move ι)) {mv : Move ι} {s s2 : Segment ι}, Spec.AvrSegment.run p (l ++ [mv]) s = .ok s2 →
    ∃ s1, Spec.AvrSegment.run p l s = .ok s1 ∧ Spec.AvrSegment.step p s1 mv = .ok s2
  | [], mv, s, s2, e => by
    refine ⟨s, rfl, ?_⟩
    simp only [List.nil_append, Spec.AvrSegment.run] at e
    cases hst : Spec.AvrSegment.step p s mv with
    | ub => rw [hst] at e; cases e
    | impossible => rw [hst] at e; cases e
    | ok s1 => rw [hst] at e; exact e
  | mv' :: l, mv, s, s2, e => by
    rw [List.cons_append] at e
    unfold Spec.AvrSegment.run at e
    cases hst : Spec.AvrSegment.step p s mv' with
    | ub => rw [hst] at e; cases e
    | impossible => rw [hst] at e; cases e
    | ok s1 =>
      rw [hst] at e
      obtain ⟨s3, h1, h2⟩ := split_last l e
      exact ⟨s3, (run_one hst).trans h1, h2⟩

/-- What holds of an example in a configured segment. -/
def Settled (f : ι → U8) (l : List (Move ι)) (s : Segment ι) : Prop :=
  ∀ i, (s.node i).fw.life = 0 ∧ (uses (s.node i).fw.w (f i) ∨ (.own i .step ∉ l ∧ Waking (f i) (s.node i)))

theorem settled (htx : ∀ i n k, ((p.surr i).env n).txOk k = true) (ps : ι → Nat → U8) (ctl : ι → CanDrv.State) {f : ι → U8} (hc : Configured p ps f) : ∀ (n : Nat) (l : List (Move ι)), l.length ≤ n →
    (∀ mv ∈ l, Spec.AvrSegment.Ok mv) → InTurn (fun _ => 0) l → (∀ i, Harmless (f i) l) → (∀ i, .own i .power ∉ l) → (∀ i, ¬Spec.AvrSys.Held (mine i l)) →
    ∀ {s : Segment ι}, Spec.AvrSegment.run p l (start p ps ctl) = .ok s → Settled f l s := by
  intro n
  induction n with
  | zero =>
    intro l hn _ _ _ _ _ s e i
    cases List.length_eq_zero_iff.1 (Nat.le_zero.1 hn)
    cases e
    obtain ⟨-, h2, h3⟩ := AvrProps.C90_kept (p.surr i) [] 0 (ps i) (hc.valid i)
    exact ⟨rfl, .inr ⟨List.not_mem_nil, ⟨h3, h2.trans (hc.nick i), rfl⟩⟩⟩
  | succ n ih =>
    intro l hn hl ht hf hp hh s e
    rcases List.eq_nil_or_concat l with rfl | ⟨l, mv, rfl⟩
    · exact ih [] (Nat.zero_le _) hl ht hf hp hh e
    simp only [List.concat_eq_append] at *
    have hsub : ∀ l1 l2, l = l1 ++ l2 → ∀ {s1 : Segment ι}, Spec.AvrSegment.run p l1 (start p ps ctl) = .ok s1 → Settled f l1 s1 := by
      rintro l1 l2 rfl s1 e1
      refine ih l1 (by simp only [List.length_append, List.length_singleton] at hn; omega) (fun mv h => hl mv (by simp [h])) (turn_front l1 (by rw [List.append_assoc] at ht; exact ht)) ?_ (fun i h => hp i (by simp [h])) ?_ e1
      · rintro j b ⟨i, h⟩; exact hf j b ⟨i, by simp [h]⟩
      · rintro i ⟨x, y, h⟩
        refine hh i ⟨x, y ++ Spec.AvrSys.button (mine i (l2 ++ [mv])), ?_⟩
        rw [List.append_assoc, mine_append, button_append, h, List.append_assoc (x ++ _)]
    obtain ⟨s1, e1, e2⟩ := split_last l e
    have h1 := hsub l [] (by simp) e1
    have hl1 := fun mv h => hl mv (List.mem_append_left _ h)
    have hm := hl mv (by simp)
    obtain ⟨-, -, u, hs, hu1⟩ := sane_run htx l [mv] (sane_start htx ps ctl) (fitting_start ps ctl) hl1 ht e1
    intro i
    obtain ⟨g1, g2⟩ := h1 i
    rcases own_move hs hm e2 i with ⟨h, hno⟩ | ⟨smv, hok, hr, hlike⟩
    · rw [h]
      refine ⟨g1, g2.imp id fun ⟨k1, k2⟩ => ⟨fun hmem => ?_, k2⟩⟩
      rcases List.mem_append.1 hmem with hmem | hmem
      · exact k1 hmem
      · cases List.mem_singleton.1 hmem
        simp [mine, noRx] at hno
    · obtain ⟨y1, hd, -, hr1⟩ := run_does (l := []) (hs.inv i) (by simp) hok hr
      cases hr1
      have hpw : smv ≠ .power := by
        rintro rfl
        have := own_is hlike rfl
        exact hp i (by simp [this])
      rcases g2 with g2 | ⟨k1, k2⟩
      · refine ⟨(active_life hd hpw g2).trans g1, .inl (Classical.byContradiction fun hn' => ?_)⟩
        have hfor : ∀ b, Foreign l b → Foreign (l ++ [mv]) b := fun b ⟨i, h⟩ => ⟨i, List.mem_append_left _ h⟩
        cases C135_cause htx ps ctl l mv hl ht e1 e2 g2 hn' with
        | power h => exact hp i (by simp [h])
        | button h hb hs =>
          obtain ⟨x, hx⟩ := hb
          refine hh i ⟨x, Spec.AvrSys.button (mine i [mv]), ?_⟩
          rw [mine_append, button_append, hx]
        | «example» m h hm hk a had hH =>
          obtain ⟨l1, l2, s2, r1, r2, r3⟩ := hH
          rcases (hsub l1 l2 r1 r2 a).2 with h | h
          · exact had (hc.diff _ _ (h.2.symm.trans r3.2))
          · have := h.2.st
            rw [r3.1] at this
            cases this
        | answer m h hm hk b hb => exact (hf i b (hfor b hb.1)).1 hb.2
        | foreign m h hm hk b hb hd => exact (hf i b (hfor b hb.1)).2 m.typ hk.2 hb.2
      · obtain ⟨r1, r2⟩ := waking_does (hc.has i) hd hpw k2
        refine ⟨r1.trans g1, r2.imp And.right fun ⟨k3, k4⟩ => ⟨fun hmem => ?_, k4⟩⟩
        rcases List.mem_append.1 hmem with hmem | hmem
        · exact k1 hmem
        · cases List.mem_singleton.1 hmem
          simp only [mine, if_pos] at hlike
          cases smv <;> simp [noRx] at hlike
          exact k3 rfl

/-- C136: AVR examples on a CAN bus, each of them as a whole, with different nicknames in their memories, whatever they send to each other and whenever.  From the first step of its main loop on each of them uses the nickname
from its memory, and none of them ever restarts, as long as all have power, no button is held for 101 ms, and something else than the examples neither answers probes under one of the nicknames nor sends events which take nicknames.  Provided that
the adapters take the events, and the main loop of each example runs once between two frames of others. -/
theorem C136_stable (htx : ∀ i n k, ((p.surr i).env n).txOk k = true) (ps : ι → Nat → U8) (ctl : ι → CanDrv.State) {f : ι → U8} (hc : Configured p ps f) (l : List (Move ι))
    (hl : ∀ mv ∈ l, Spec.AvrSegment.Ok mv) (ht : InTurn (fun _ => 0) l) (hf : ∀ i, Harmless (f i) l) (hp : ∀ i, .own i .power ∉ l) (hh : ∀ i, ¬Spec.AvrSys.Held (mine i l)) {s : Segment ι}
    (e : Spec.AvrSegment.run p l (start p ps ctl) = .ok s) (i : ι) : (s.node i).fw.life = 0 ∧ (.own i .step ∈ l → uses (s.node i).fw.w (f i)) := by
  obtain ⟨h1, h2⟩ := settled htx ps ctl hc l.length l (Nat.le_refl _) hl ht hf hp hh e i
  refine ⟨h1, fun hm => ?_⟩
  rcases h2 with h2 | h2
  · exact h2
  · exact absurd hm h2.1

end

/-- The hypotheses of `C136_stable` are met by two examples with the nicknames 5 and 6. -/
example : Configured exParts (CanSegment.exMems 5 6) (fun i => if i then 5 else 6) ∧ (∀ mv ∈ exNews ++ exWhile, Spec.AvrSegment.Ok mv) ∧ InTurn (fun _ => 0) (exNews ++ exWhile) ∧
    (∀ i : Bool, Harmless (if i then 5 else 6) (exNews ++ exWhile)) ∧ (∀ i, .own i .power ∉ exNews ++ exWhile) ∧ (∀ i, ¬Spec.AvrSys.Held (mine i (exNews ++ exWhile))) ∧ (∀ i, .own i .step ∈ exNews ++ exWhile) ∧
    (exLook (Spec.AvrSegment.run exParts (exNews ++ exWhile) (exStart 5 6))).isSome = true := by
  refine ⟨⟨by decide +kernel, by decide +kernel, by decide +kernel, by decide +kernel⟩, fun mv h => (exAlone_ok (by decide +kernel) mv h).1, exTurn_ok _ _ (by decide +kernel), ?_, ?_, ?_, ?_, by decide +kernel⟩
  · rintro j b ⟨i, h⟩
    have : (exNews ++ exWhile).all exAlone = true := by decide +kernel
    cases List.all_eq_true.1 this _ h
  · intro i; simp [exNews, exWhile, exLoop, exSend]
  · rintro i ⟨x, y, h⟩
    have := congrArg List.length h
    have hle : ∀ i, (Spec.AvrSys.button (mine i (exNews ++ exWhile))).length = 1 := by decide +kernel
    rw [hle] at this
    simp only [List.length_append, List.length_replicate] at this
    omega
  · intro i; cases i <;> simp [exNews, exWhile, exLoop]

end Vscp.AvrSegment
