/-
Property theorems: an AVR example passes over a nickname only if another one has it (C126).
-/
import Verif.Spec.Answers
import Verif.Props.CanAnswers
import Verif.Props.AvrSegment
import Verif.Props.AvrProbe

namespace Vscp.AvrSegment
open Vscp.Driver Vscp.Avr Vscp.Avr.Sys Vscp.Spec.AvrSegment Vscp.CanSegment Vscp.Spec.CanDrv
open Vscp.Spec (uses ackFrom)
open Vscp.Driver.CanDrv (BusFrame)
open Vscp.Safety (allOk)

variable {ι : Type} [DecidableEq ι] {p : Parts ι}

/-- The application of the AVR example sends events in its callbacks, and answers no probes. -/
theorem reports (s : Avr.Surr) (n : Nat) : Spec.CanSegment.Reports (s.cb n) := by
  intro w op hm
  unfold Avr.Surr.cb Avr.cb at hm
  split at hm
  · split at hm
    · cases List.mem_singleton.1 hm; exact ⟨_, rfl, (by decide : (20 : U16).toNat < 512), fun h => absurd (show (20 : U16) = 0 from h.1) (by decide)⟩
    · split at hm
      · cases List.mem_singleton.1 hm; exact ⟨_, rfl, (by decide : (20 : U16).toNat < 512), fun h => absurd (show (20 : U16) = 0 from h.1) (by decide)⟩
      · cases hm
  · cases hm

/-- One example in the segment: it makes moves of its own. -/
theorem own_step {s s' : Segment ι} {u : ι → Nat} (hs : Sane p s u) {mv : Move ι} (hm : Spec.AvrSegment.Ok mv)
    (e : Spec.AvrSegment.step p s mv = .ok s') (d : ι) :
    s'.node d = s.node d ∨ ∃ smv, Spec.AvrSys.Ok smv ∧ Sys.run (p.surr d) (p.around d) [smv] (s.node d) = .ok (s'.node d) := by
  have one : ∀ {i : ι} {smv : Sys.Move} {rest : List BusFrame}, Spec.AvrSys.Ok smv → Spec.AvrSegment.act p s i smv rest = .ok s' →
      s'.node d = s.node d ∨ ∃ smv, Spec.AvrSys.Ok smv ∧ Sys.run (p.surr d) (p.around d) [smv] (s.node d) = .ok (s'.node d) := by
    intro i smv rest ho e
    obtain ⟨y, hy, rfl⟩ := act_after e
    by_cases hd : d = i
    · subst hd
      refine .inr ⟨smv, ho, ?_⟩
      simp only [after, if_pos]
      show (match Sys.move (p.surr d) (p.around d) (s.node d) smv with | .ok y => Sys.run (p.surr d) (p.around d) [] y | .ub => .ub | .impossible => .impossible) = _
      rw [hy]
      rfl
    · exact .inl (by simp only [after, if_neg hd])
  cases mv with
  | own i smv => exact one hm e
  | deliver i =>
    simp only [Spec.AvrSegment.step] at e
    cases hb : s.inbox i with
    | nil => rw [hb] at e; cases e; exact .inl rfl
    | cons b l =>
      rw [hb] at e
      have hv : Valid b := hs.sound.inbox i b (by show b ∈ s.inbox i; rw [hb]; exact List.mem_cons_self ..)
      exact one (smv := .rx b) hv e

/-- What is known of the segment in a history: each example makes a history of its own, and answers to probes come from examples of which `H` says that they had the nickname. -/
theorem back_run (htx : ∀ i n k, ((p.surr i).env n).txOk k = true) {H : ι → U8 → Prop} (d : ι) : ∀ (l l' : List (Move ι)) (s s' : Segment ι) (u : ι → Nat), Sane p s u → Backed H (seg s) →
    (∀ mv ∈ l, Spec.AvrSegment.Ok mv ∧ Reserved mv) → InTurn u (l ++ l') → (∀ pre post s1, l = pre ++ post → Spec.AvrSegment.run p pre s = .ok s1 → ∀ a q, uses (s1.node a).fw.w q → H a q) →
    Spec.AvrSegment.run p l s = .ok s' → (∃ u', Sane p s' u' ∧ InTurn u' l') ∧ Backed H (seg s') ∧
      ∃ ld, (∀ mv ∈ ld, Spec.AvrSys.Ok mv) ∧ Sys.run (p.surr d) (p.around d) ld (s.node d) = .ok (s'.node d)
  | [], l', s, s', u, hs, hb, _, ht, _, e => by
    cases e
    exact ⟨⟨u, hs, ht⟩, hb, [], fun _ h => (by cases h), rfl⟩
  | mv :: l, l', s, s', u, hs, hb, hl, ht, hH, e => by
    obtain ⟨hm, hmo⟩ := hl mv (List.mem_cons_self ..)
    unfold Spec.AvrSegment.run at e
    cases hst : Spec.AvrSegment.step p s mv with
    | ub => rw [hst] at e; cases e
    | impossible => rw [hst] at e; cases e
    | ok s1 =>
      rw [hst] at e
      obtain ⟨h1, h2⟩ := sim_step htx hs hm ht.1 hst
      have hb1 : Backed H (seg s1) := by
        rcases h2 with h2 | ⟨cmv, h2, hf⟩
        · rw [h2]; exact hb
        · exact backed_step (proper htx) (fun i k => reports _ _) hs.sound hb (hH [] _ s rfl rfl) hf.ok (hf.reserved hmo) h2
      obtain ⟨r1, r2, ld, r3, r4⟩ := back_run htx d l l' s1 s' _ h1 hb1 (fun mv h => hl mv (List.mem_cons_of_mem _ h)) ht.2 (fun pre post s2 e2 hr => by
        refine hH (mv :: pre) post s2 (by rw [e2]; rfl) ?_
        show (match Spec.AvrSegment.step p s mv with | .ok s => Spec.AvrSegment.run p pre s | .ub => .ub | .impossible => .impossible) = _
        rw [hst]
        exact hr) e
      refine ⟨r1, r2, ?_⟩
      rcases own_step hs hm hst d with h | ⟨smv, h, hr⟩
      · rw [h] at r4; exact ⟨ld, r3, r4⟩
      · refine ⟨smv :: ld, fun mv hmv => ?_, ?_⟩
        · rcases List.mem_cons.1 hmv with rfl | hmv
          · exact h
          · exact r3 mv hmv
        · show Sys.run (p.surr d) (p.around d) ([smv] ++ ld) (s.node d) = _
          rw [Sys.run_append, hr]
          exact r4

/-- C126: AVR examples on a CAN bus, each of them as a whole, whatever happens and whenever.  If one of them takes the nickname `q` by itself, or gives up (`q` = 255), then each lower nickname from 1
on was used by another one at some time before; provided that nothing else answers probes, the adapters take the events, and the main loop of each example runs once between two frames of others. -/
theorem C126_in_use (htx : ∀ i n k, ((p.surr i).env n).txOk k = true) (ps : ι → Nat → U8) (ctl : ι → CanDrv.State) (l : List (Move ι)) (mv : Move ι)
    (hl : ∀ mv' ∈ l ++ [mv], Spec.AvrSegment.Ok mv' ∧ Reserved mv') (ht : InTurn (fun _ => 0) (l ++ [mv])) {s s' : Segment ι} (e : Spec.AvrSegment.run p l (start p ps ctl) = .ok s)
    (e' : Spec.AvrSegment.step p s mv = .ok s') {d : ι} {q : U8} (hi : (s.node d).fw.w.v.st = .init)
    (hq : uses (s'.node d).fw.w q ∨ (s'.node d).fw.w.v.st = .idle ∧ (s'.node d).fw.life = (s.node d).fw.life ∧ q = 0xFF) (q' : U8) (h1 : 1 ≤ q'.toNat) (h2 : q'.toNat < q.toNat) :
    ∃ a, a ≠ d ∧ ∃ pre post s1, l = pre ++ post ∧ Spec.AvrSegment.run p pre (start p ps ctl) = .ok s1 ∧ uses (s1.node a).fw.w q' := by
  obtain ⟨⟨u, hs, hu⟩, hb, ld, o1, o2⟩ := back_run htx (H := fun a q => ∃ pre post s1, l = pre ++ post ∧ Spec.AvrSegment.run p pre (start p ps ctl) = .ok s1 ∧ uses (s1.node a).fw.w q) d
    l [mv] _ _ _ (sane_start htx ps ctl) (CanSegment.backed_start (p := parts p) _ (fun _ => allOk) ps ctl) (fun mv' h => hl mv' (List.mem_append_left _ h)) ht
    (fun pre post s1 e1 e2 a q hu => ⟨pre, post, s1, e1, e2, hu⟩) e
  have hm := (hl mv (List.mem_append_right _ (List.mem_singleton_self _))).1
  have hp : Passed (p.surr d) (p.around d) (boot (p.surr d) [] 0 (ps d) (ctl d)) ld (s.node d) q := by
    rcases own_step hs hm e' d with h | ⟨smv, h, hr⟩
    · rcases hq with hq | hq
      · have := hq.1; rw [h, hi] at this; cases this
      · have := hq.1; rw [h, hi] at this; cases this
    · rcases hq with hq | ⟨hq, hlife, rfl⟩
      · rw [← hq.2]
        exact C125_lowest o1 h o2 hr hi hq.1
      · exact C125_gave_up o1 h o2 hr hi hq hlife
  obtain ⟨l1, l2, y1, hh, -, -, -, -, -, -, g7, g8⟩ := hp
  obtain ⟨m, hm', hk⟩ := g8 q' h1 h2
  exact hb.heard d m (by show m ∈ (s.node d).heard; rw [g7]; exact List.mem_append_right _ hm') q' hk

/-! ### Examples -/

theorem exAlone_reserved {l : List (Move Bool)} (h : l.all exAlone = true) : ∀ mv ∈ l, Spec.AvrSegment.Ok mv ∧ Reserved mv := by
  intro mv hm
  have := List.all_eq_true.1 h mv hm
  rcases mv with ⟨i, mv⟩ | i
  · cases mv <;> first | exact ⟨trivial, trivial⟩ | cases this
  · exact ⟨trivial, trivial⟩

/-- An example with the nickname 1 is active; the other one looks for a nickname, hears the answer of the first one, and waits for one about the nickname 2. -/
def exThird : List (Move Bool) := exFirst ++ exSecond ++ exWait 8

/-- The hypotheses of `C126_in_use` are met: it takes the nickname 2 in the next step. -/
example : (∀ mv ∈ exThird ++ [.own false .step], Spec.AvrSegment.Ok mv ∧ Reserved mv) ∧ InTurn (fun _ => 0) (exThird ++ [.own false .step]) ∧
    (match Spec.AvrSegment.run exParts exThird (exStart 1 0xFF) with
    | .ok s => match Spec.AvrSegment.step exParts s (.own false .step) with
      | .ok s' => decide ((s.node false).fw.w.v.st = .init ∧ (s'.node false).fw.w.v.st = .active ∧ (s'.node false).fw.w.v.nick = 2)
      | _ => false
    | _ => false) = true :=
  ⟨exAlone_reserved (by decide +kernel), exTurn_ok _ _ (by decide +kernel), by decide +kernel⟩

end Vscp.AvrSegment
