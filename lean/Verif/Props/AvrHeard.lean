/-
Property theorems: an AVR example on a CAN bus hears everything which the others send (C127).
-/
import Verif.Props.CanHeard
import Verif.Props.AvrSegment

namespace Vscp.AvrSegment
open Vscp.Driver Vscp.Avr Vscp.Avr.Sys Vscp.CanSegment Vscp.Spec.AvrSegment
open Vscp.Driver.CanDrv (BusFrame)
open Vscp.Spec.CanNode (taken frameOf)
open Vscp.Spec.CanSegment (sentBy Bears)

variable {ι : Type} [DecidableEq ι] {p : Parts ι}

/-- The events which the AVR example sends in its callbacks fit into a frame. -/
theorem fitting (s : Surr) (n : Nat) : ∀ m, Vscp.Sends (s.cb n) m → m.prio.toNat < 8 ∧ m.cls.toNat < 512 := by
  rintro m ⟨w, hm⟩
  unfold Surr.cb Avr.cb at hm
  split at hm
  · split at hm
    · cases List.mem_singleton.1 hm; exact ⟨show (3 : U8).toNat < 8 by decide, show (20 : U16).toNat < 512 by decide⟩
    · split at hm
      · cases List.mem_singleton.1 hm; exact ⟨show (3 : U8).toNat < 8 by decide, show (20 : U16).toNat < 512 by decide⟩
      · cases hm
  · cases hm

/-- All events of the examples fit into frames. -/
def Fitting (s : Spec.CanSegment.Segment ι) : Prop := ∀ i m r, .tx m r ∈ (s.node i).w.out → m.prio.toNat < 8 ∧ m.cls.toNat < 512

theorem fitting_step (htx : ∀ i n k, ((p.surr i).env n).txOk k = true) {s s' : Spec.CanSegment.Segment ι} (hs : Sound (parts p) s) (h : Fitting s) {mv : Spec.CanSegment.Move ι}
    (hm : Spec.CanSegment.Ok mv) (hc : ∀ i m, mv ≠ .own i (.call (.sendEvent m))) (e : Spec.CanSegment.step (parts p) s mv = .ok s') : Fitting s' := by
  have one : ∀ {i : ι} {cmv : CanNode.Move} {rest : List BusFrame}, Spec.CanNode.Ok cmv → (∀ m, cmv ≠ .call (.sendEvent m)) → Spec.CanSegment.act (parts p) s i cmv rest = .ok s' → Fitting s' := by
    intro i cmv rest ho hc e
    obtain ⟨n, hn, -, e2, -, e4⟩ := act_eq e
    intro j m r hj
    by_cases hji : j = i
    · subst hji
      rw [e2] at hj
      refine CanNode.run_fits ((proper htx).cfg j (s.life j)) ((proper htx).cb j (s.life j)) ((parts p).around j (s.life j)) (fitting _ _) [cmv] (hs.fine j).good (fun mv h => by cases List.mem_singleton.1 h; exact ho)
        (fun m h => absurd (List.mem_singleton.1 h).symm (hc m)) (h j) ?_ m r hj
      show (match CanNode.move _ _ _ _ cmv with | .ok n => CanNode.run _ _ _ [] n | .ub => .ub | .impossible => .impossible) = _
      rw [hn]
      rfl
    · rw [(e4 j hji).1] at hj
      exact h j m r hj
  cases mv with
  | own i cmv => exact one hm (fun m hm => hc i m (by rw [hm])) e
  | deliver i =>
    simp only [Spec.CanSegment.step] at e
    cases hb : s.inbox i with
    | nil => rw [hb] at e; cases e; exact h
    | cons b l =>
      rw [hb] at e
      exact one (cmv := .rx b) (hs.inbox i b (by rw [hb]; exact List.mem_cons_self ..)) (fun m hm => (by cases hm)) e
  | power i ok ps ctl =>
    cases e
    intro j m r hj
    dsimp only at hj
    split at hj
    · exact CanNode.boot_fits _ _ _ _ _ m r hj
    · exact h j m r hj

theorem fitting_start (ps : ι → Nat → U8) (ctl : ι → CanDrv.State) : Fitting (seg (start p ps ctl)) := fun i m r h => CanNode.boot_fits ((p.surr i).ctx 0) ((p.surr i).cb 0) Vscp.Safety.allOk (ps i) (ctl i) m r h

theorem foreign_one {i : ι} {mv : Move ι} {cmv : Spec.CanSegment.Move ι} (h : Fits mv cmv) : (Spec.CanSegment.foreign i [cmv]).Sublist (foreign i [mv]) := by
  by_cases hx : ∃ j b, cmv = .own j (.rx b)
  · obtain ⟨j, b, rfl⟩ := hx
    rw [h.outside j b rfl]
    simp only [Spec.CanSegment.foreign, foreign]
    exact List.Sublist.refl _
  · have : Spec.CanSegment.foreign i [cmv] = [] := by
      cases cmv with
      | own j c =>
        cases c with
        | rx b => exact absurd ⟨j, b, rfl⟩ hx
        | _ => rfl
      | _ => rfl
    rw [this]
    exact List.nil_sublist _

theorem foreign_cons (i : ι) (mv : Move ι) (l : List (Move ι)) : foreign i (mv :: l) = foreign i [mv] ++ foreign i l := by
  cases mv with
  | own j cmv =>
    cases cmv with
    | rx b => simp only [foreign]; split <;> simp
    | _ => simp [foreign]
  | _ => simp [foreign]

theorem life_own {s s' : Segment ι} {u : ι → Nat} (htx : ∀ i n k, ((p.surr i).env n).txOk k = true) (hs : Sane p s u) {mv : Move ι} (hm : Spec.AvrSegment.Ok mv)
    (hu : ∀ i, mv = .deliver i → u i = 0) (e : Spec.AvrSegment.step p s mv = .ok s') (j : ι) : (s.node j).fw.life ≤ (s'.node j).fw.life := by
  rcases (sim_step htx hs hm hu e).2 with h | ⟨cmv, h, -⟩
  · have := congrFun (congrArg Spec.CanSegment.Segment.life h) j
    exact Nat.le_of_eq this.symm
  · exact life_step h j

theorem sane_run (htx : ∀ i n k, ((p.surr i).env n).txOk k = true) : ∀ (l l' : List (Move ι)) {s s' : Segment ι} {u : ι → Nat}, Sane p s u → Fitting (seg s) → (∀ mv ∈ l, Spec.AvrSegment.Ok mv) →
    InTurn u (l ++ l') → Spec.AvrSegment.run p l s = .ok s' → Fitting (seg s') ∧ (∀ j, (s.node j).fw.life ≤ (s'.node j).fw.life) ∧ ∃ u', Sane p s' u' ∧ InTurn u' l'
  | [], l', s, s', u, hs, hf, _, ht, e => by cases e; exact ⟨hf, fun _ => Nat.le_refl _, u, hs, ht⟩
  | mv :: l, l', s, s', u, hs, hf, hl, ht, e => by
    have hm := hl mv (List.mem_cons_self ..)
    unfold Spec.AvrSegment.run at e
    cases hst : Spec.AvrSegment.step p s mv with
    | ub => rw [hst] at e; cases e
    | impossible => rw [hst] at e; cases e
    | ok s1 =>
      rw [hst] at e
      obtain ⟨h1, h2⟩ := sim_step htx hs hm ht.1 hst
      have hf1 : Fitting (seg s1) := by
        rcases h2 with h2 | ⟨cmv, h2, h3⟩
        · rw [h2]; exact hf
        · exact fitting_step htx hs.sound hf h3.ok h3.calls h2
      obtain ⟨r1, r2, r3⟩ := sane_run htx l l' h1 hf1 (fun mv h => hl mv (List.mem_cons_of_mem _ h)) ht.2 e
      exact ⟨r1, fun j => Nat.le_trans (life_own htx hs hm ht.1 hst j) (r2 j), r3⟩

theorem weave_run (htx : ∀ i n k, ((p.surr i).env n).txOk k = true) {P : Prop} {i : ι} {s0 : Spec.CanSegment.Segment ι} : ∀ (l l' : List (Move ι)) {s s' : Segment ι} {u : ι → Nat} {f : List BusFrame}
    {L1 L2 : List (Option ι × BusFrame)}, Sane p s u → Fitting (seg s) → Woven P i s0 (seg s) f L1 L2 → (∀ mv ∈ l, Spec.AvrSegment.Ok mv) → InTurn u (l ++ l') →
    (∀ j, (s'.node j).fw.life = (s.node j).fw.life) → Spec.AvrSegment.run p l s = .ok s' → ∃ L1' L2', Woven P i s0 (seg s') (f ++ foreign i l) L1' L2'
  | [], l', s, s', u, f, L1, L2, hs, hf, h, _, ht, _, e => by cases e; exact ⟨L1, L2, by simpa [foreign] using h⟩
  | mv :: l, l', s, s', u, f, L1, L2, hs, hf, h, hl, ht, hlife, e => by
    have hm := hl mv (List.mem_cons_self ..)
    have hl' := fun mv h => hl mv (List.mem_cons_of_mem _ h)
    unfold Spec.AvrSegment.run at e
    cases hst : Spec.AvrSegment.step p s mv with
    | ub => rw [hst] at e; cases e
    | impossible => rw [hst] at e; cases e
    | ok s1 =>
      rw [hst] at e
      obtain ⟨h1, h2⟩ := sim_step htx hs hm ht.1 hst
      have hf1 : Fitting (seg s1) := by
        rcases h2 with h2 | ⟨cmv, h2, h3⟩
        · rw [h2]; exact hf
        · exact fitting_step htx hs.sound hf h3.ok h3.calls h2
      have hl1 : ∀ j, (s1.node j).fw.life = (s.node j).fw.life := fun j => by
        have := hlife j
        have := life_own htx hs hm ht.1 hst j
        have := (sane_run htx l l' h1 hf1 hl' ht.2 e).2.1 j
        omega
      have hw : ∃ A B, Woven P i s0 (seg s1) (f ++ foreign i [mv]) A B := by
        have more : ∀ {f' : List BusFrame} {s2}, f'.Sublist (f ++ foreign i [mv]) → (∃ A B, Woven P i s0 s2 f' A B) → ∃ A B, Woven P i s0 s2 (f ++ foreign i [mv]) A B := fun hsub ⟨A, B, hw⟩ =>
          ⟨A, B, hw.stored, hw.inbox, hw.wire, hw.own, hw.outside.trans hsub, hw.inside, hw.out⟩
        rcases h2 with h2 | ⟨cmv, h2, h3⟩
        · rw [h2]
          exact more (List.sublist_append_left ..) ⟨L1, L2, h⟩
        · refine more ((List.Sublist.refl f).append (foreign_one h3)) (woven_step (proper htx) hs.sound h h3.ok (fun _ hd => ?_) hl1 h2)
          have hd := h3.deliver i hd
          refine heard_all (hs.sound.fine i).good ((hs.turn i).resolve_right fun h => ?_)
          rw [ht.1 i hd] at h
          have := ahead_pos (s.node i).pc
          omega
      obtain ⟨A, B, hw⟩ := hw
      rw [foreign_cons, ← List.append_assoc]
      exact weave_run htx l l' h1 hf1 hw hl' ht.2 (fun j => (hlife j).trans (hl1 j).symm) e

/-- C127: AVR examples on a CAN bus, each of them as a whole, from any state of any history on (`s0`), until one restarts.  What example `i` hears is what the controllers of all others put on
the bus, each frame once, those of one example in the order of the bus, and frames of something else; and these are all events which the others send.  Provided that the main loop of each
example runs once between two frames of others, and that nothing is on the way to example `i` at the beginning and at the end. -/
theorem C127_examples (htx : ∀ i n k, ((p.surr i).env n).txOk k = true) (ps : ι → Nat → U8) (ctl : ι → CanDrv.State) (pre l : List (Move ι)) (hl : ∀ mv ∈ pre ++ l, Spec.AvrSegment.Ok mv)
    (ht : InTurn (fun _ => 0) (pre ++ l)) {s0 s : Segment ι} (e0 : Spec.AvrSegment.run p pre (start p ps ctl) = .ok s0) (e : Spec.AvrSegment.run p l s0 = .ok s)
    (hlife : ∀ j, (s.node j).fw.life = (s0.node j).fw.life) {i : ι}
    (hin0 : s0.inbox i = []) (hst0 : (s0.node i).x.2.stored.length = (s0.node i).heard.length) (hin : s.inbox i = []) (hst : (s.node i).x.2.stored.length = (s.node i).heard.length) :
    ∃ L : List (Option ι × BusFrame), Bears L ((s.node i).heard.drop (s0.node i).heard.length) ∧ (∀ x ∈ L, x.1 ≠ some i) ∧ (sentBy L none).Sublist (foreign i l) ∧
      (∀ a, a ≠ i → (s.node a).x.2.wire = (s0.node a).x.2.wire ++ sentBy L (some a)) ∧
      ∀ a, a ≠ i → (s0.node a).x.2.wire.length = (taken (s0.node a).fw.w.out).length → (s.node a).x.2.wire.length = (taken (s.node a).fw.w.out).length →
        (sentBy L (some a)).Perm ((taken ((s.node a).fw.w.out.drop (s0.node a).fw.w.out.length)).map frameOf) := by
  obtain ⟨hf0, -, u, hs0, ht0⟩ := sane_run htx pre l (sane_start htx ps ctl) (fitting_start ps ctl) (fun mv h => hl mv (List.mem_append_left _ h)) ht e0
  have hl' := fun mv h => hl mv (List.mem_append_right _ h)
  rw [← List.append_nil l] at ht0
  obtain ⟨hf, -, u', hs, -⟩ := sane_run htx l [] hs0 hf0 hl' ht0 e
  obtain ⟨L1, L2, hw⟩ := weave_run htx l [] hs0 hf0 (woven_refl (P := True) (s := seg s0) (i := i) hin0) hl' ht0 hlife e
  have h2 : L2 = [] := by
    have := hw.inbox
    rw [show (seg s).inbox i = [] from hin] at this
    exact List.map_eq_nil_iff.1 this.symm
  subst h2
  refine ⟨L1, bears_of (hs.sound.fine i) hw hst0 hst, fun x hx => hw.own x (List.mem_append_left _ hx), by simpa using hw.outside, fun a ha => ?_, fun a ha h0 h1 => ?_⟩
  · obtain ⟨W, w1, -, w2⟩ := hw.wire a ha
    rw [← w2 trivial, List.append_nil] at w1
    exact w1
  have := sent_all trivial ha (hs0.sound.fine a) (hs.sound.fine a) hw h0 h1 fun m hm => hf a m true (by
    obtain ⟨o, ho, e⟩ := List.mem_filterMap.1 hm
    cases o with
    | tx m' r => cases r <;> simp at e; subst e; exact ho
    | _ => simp at e)
  simpa [seg, Sys.node] using this

/-- The hypotheses of `C127_examples` are met by an example which looks for a nickname and one which hears its two probes. -/
example : (∀ mv ∈ exFirst ++ exSecond, Spec.AvrSegment.Ok mv) ∧ InTurn (fun _ => 0) (exFirst ++ exSecond) ∧
    (match Spec.AvrSegment.run exParts exFirst (exStart 1 0xFF) with
    | .ok s0 => match Spec.AvrSegment.run exParts exSecond s0 with
      | .ok s =>
        decide (s0.inbox true = [] ∧ s.inbox true = [] ∧ (s0.node true).x.2.stored.length = (s0.node true).heard.length ∧ (s.node true).x.2.stored.length = (s.node true).heard.length) &&
        decide ((s.node true).fw.life = (s0.node true).fw.life ∧ (s.node false).fw.life = (s0.node false).fw.life) &&
        decide ((s0.node false).x.2.wire.length = (taken (s0.node false).fw.w.out).length ∧ (s.node false).x.2.wire.length = (taken (s.node false).fw.w.out).length) &&
        decide ((s.node true).heard.length = (s0.node true).heard.length + 2 ∧ (taken ((s.node false).fw.w.out.drop (s0.node false).fw.w.out.length)).length = 2)
      | _ => false
    | _ => false) = true :=
  ⟨fun mv h => (exAlone_ok (by decide +kernel) mv h).1, exTurn_ok _ _ (by decide +kernel), by decide +kernel⟩

end Vscp.AvrSegment
