/-
Property theorems: the heartbeats in a configured segment of AVR examples (C137).
-/
import Verif.Spec.AvrLives
import Verif.Props.AvrStable
import Verif.Props.AvrSegBeat

namespace Vscp.AvrSegment
open Vscp.Driver Vscp.Avr Vscp.Avr.Sys Vscp.CanSegment Vscp.Spec.AvrSegment
open Vscp.CanDrvProps Vscp.Safety
open Vscp.Spec (uses)
open Vscp.Spec.AvrSys (ticks Fast Beat)
open Vscp.Spec.CanNode (taken)

section
variable {ι : Type} [DecidableEq ι] {p : Parts ι}

theorem undisturbed_front {f : ι → U8} {l l' : List (Move ι)} (h : Undisturbed f (l ++ l')) : Undisturbed f l where
  ok := fun mv hm => h.ok mv (List.mem_append_left _ hm)
  turn := turn_front l h.turn
  harmless := fun i b ⟨j, hb⟩ => h.harmless i b ⟨j, List.mem_append_left _ hb⟩
  power := fun i hm => h.power i (List.mem_append_left _ hm)
  button := fun i ⟨x, y, e⟩ => h.button i ⟨x, y ++ Spec.AvrSys.button (mine i l'), by rw [mine_append, button_append, e, List.append_assoc (x ++ _)]⟩

theorem lives (htx : ∀ i n k, ((p.surr i).env n).txOk k = true) {ps : ι → Nat → U8} {ctl : ι → CanDrv.State} {f : ι → U8} (hc : Configured p ps f) {l l' : List (Move ι)} (h : Undisturbed f (l ++ l')) {s : Segment ι}
    (e : Spec.AvrSegment.run p l (start p ps ctl) = .ok s) (i : ι) : (s.node i).fw.life = 0 ∧ (.own i .step ∈ l → uses (s.node i).fw.w (f i)) :=
  have h := undisturbed_front h
  C136_stable htx ps ctl hc l h.ok h.turn h.harmless h.power h.button e i

/-- C137: AVR examples on a CAN bus, each of them as a whole, with different nicknames in their memories, which nobody disturbs.  The main loop of example `a` has begun before `s0`; then more than 30 s of its time pass, and its
main loop runs once in each millisecond.  Then `a` has sent a heartbeat in this time (in the move before `s2`) with the nickname from its memory; and each other example `b` has heard it since then as soon as nothing is on the way
from and to both (at the end of any further history `l'`). -/
theorem C137_heartbeats (htx : ∀ i n k, ((p.surr i).env n).txOk k = true) (ps : ι → Nat → U8) (ctl : ι → CanDrv.State) {f : ι → U8} (hc : Configured p ps f) (pre l l' : List (Move ι)) (hu : Undisturbed f (pre ++ l ++ l'))
    {s0 s s' : Segment ι} (e0 : Spec.AvrSegment.run p pre (start p ps ctl) = .ok s0) (e : Spec.AvrSegment.run p l s0 = .ok s) (e' : Spec.AvrSegment.run p l' s = .ok s') {a : ι} (ha : .own a .step ∈ pre)
    (hf : Fast (mine a (pre ++ l))) (hticks : 30000 < ticks (mine a l)) :
    ∃ l1 mv l2 s1 s2 m, l = l1 ++ mv :: l2 ∧ Spec.AvrSegment.run p l1 s0 = .ok s1 ∧ Spec.AvrSegment.step p s1 mv = .ok s2 ∧
      m ∈ taken ((s2.node a).fw.w.out.drop (s1.node a).fw.w.out.length) ∧ Beat (p.surr a) (s2.node a) m ∧ m.oAddr = f a ∧
      ∀ b, b ≠ a → Silent s' a → Silent s' b → ∃ g ∈ (s'.node b).heard.drop (s2.node b).heard.length, Beat (p.surr a) (s2.node a) g ∧ g.oAddr = f a := by
  have h0 := lives htx hc (l := pre) (l' := l ++ l') (by rw [← List.append_assoc]; exact hu) e0
  have h1 := lives htx hc hu (run_both pre l e0 e)
  have h2 := lives htx hc (l := pre ++ l ++ l') (l' := []) (by rw [List.append_nil]; exact hu) (run_both _ l' (run_both pre l e0 e) e')
  have hact : Remains p a l s0 := fun l1 l2 s1 r1 r2 =>
    ((lives htx hc (l := pre ++ l1) (l' := l2 ++ l') (by rw [r1] at hu; simpa using hu) (run_both pre l1 e0 r2) a).2 (List.mem_append_left _ ha)).1
  have hu1 := undisturbed_front hu
  obtain ⟨l1, mv, l2, s1, s2, m, q1, q2, q3, q4, q5, q6, q7⟩ := C131_heartbeat htx ps ctl pre l hu1.ok hu1.turn e0 e (a := a) ((h1 a).1.trans (h0 a).1.symm) hact hf hticks
  have k1 := lives htx hc (l := pre ++ l1) (l' := mv :: l2 ++ l') (by rw [q1] at hu; simpa using hu) (run_both pre l1 e0 q2)
  have k2 := lives htx hc (l := pre ++ l1 ++ [mv]) (l' := l2 ++ l') (by rw [q1] at hu; simpa using hu) (run_both _ [mv] (run_both pre l1 e0 q2) (run_one q3)) a
  have hn : (s2.node a).fw.w.v.nick = f a := (k2.2 (by simp [ha])).2
  refine ⟨l1, mv, l2, s1, s2, m, q1, q2, q3, q5, q6, q6.origin.trans hn, fun b hb hsa hsb => ?_⟩
  obtain ⟨g, hg, hbeat⟩ := q7 b l' s' hb (fun mv h => hu.ok mv (List.mem_append_right _ h)) hu.turn e' ((h2 a).1.trans (h0 a).1.symm) ((h2 b).1.trans (k1 b).1.symm) hsa hsb
  exact ⟨g, hg, hbeat, hbeat.origin.trans hn⟩

end

/-- Nobody presses the button in these moves. -/
theorem ex_calm {l : List Sys.Move} (h : ∀ mv ∈ l, mv ≠ .tick true) : true ∉ Spec.AvrSys.button l := by
  induction l with
  | nil => exact List.not_mem_nil
  | cons mv l ih =>
    have ih := ih fun mv hm => h mv (List.mem_cons_of_mem _ hm)
    have h0 := h mv (List.mem_cons_self ..)
    cases mv with
    | tick b =>
      cases b
      · simpa [Spec.AvrSys.button] using ih
      · exact absurd rfl h0
    | _ => exact ih

/-- The hypotheses of `C137_heartbeats` can be met: by the first one of two examples, more than 30 s after both have announced themselves. -/
example (n : Nat) (hn : 30000 < n) : ∃ s0 s, Configured exParts (CanSegment.exMems 5 6) (fun i => if i then 5 else 6) ∧
    Undisturbed (fun i : Bool => if i then 5 else 6) (exNews ++ (exTime false n).map (.own true) ++ []) ∧
    Spec.AvrSegment.run exParts exNews (exStart 5 6) = .ok s0 ∧ Spec.AvrSegment.run exParts ((exTime false n).map (.own true)) s0 = .ok s ∧ .own true .step ∈ exNews ∧
    Fast (mine true (exNews ++ (exTime false n).map (.own true))) ∧ 30000 < ticks (mine true ((exTime false n).map (.own true))) := by
  obtain ⟨ht, hf, hl⟩ := ex_time n
  have hn1 : ∀ mv ∈ exNews, Spec.AvrSegment.Ok mv := fun mv h => (exAlone_ok (by decide +kernel) mv h).1
  have hn2 : InTurn (fun _ => 0) exNews := exTurn_ok _ _ (by decide +kernel)
  have hq : ∀ mv ∈ exTime false n, mv = .tick false ∨ mv = .step := by
    intro mv hm
    simp only [exTime, List.mem_flatten, List.mem_replicate] at hm
    obtain ⟨_, ⟨-, rfl⟩, h⟩ := hm
    revert mv h
    simp [exMs]
  have hq2 : ∀ mv ∈ exNews ++ (exTime false n).map (Move.own true), mv ∈ exNews ∨ mv = .own true (.tick false) ∨ mv = .own true .step := by
    intro mv hm
    rcases List.mem_append.1 hm with hm | hm
    · exact .inl hm
    · obtain ⟨mv', h', rfl⟩ := List.mem_map.1 hm
      rcases hq mv' h' with rfl | rfl
      · exact .inr (.inl rfl)
      · exact .inr (.inr rfl)
  have hsome : (exLook (Spec.AvrSegment.run exParts exNews (exStart 5 6))).isSome = true := by decide +kernel
  cases e0 : Spec.AvrSegment.run exParts exNews (exStart 5 6) with
  | ub => rw [e0] at hsome; cases hsome
  | impossible => rw [e0] at hsome; cases hsome
  | ok s0 =>
    obtain ⟨lp, op⟩ := own_run ex_tx true exNews (sane_start ex_tx _ _) hn1 hn2 e0
    have hrun : Sys.run AvrProps.exSurr (fun _ => CanNode.exAround) lp (boot AvrProps.exSurr [] 0 (CanSegment.exMems 5 6 true) CanSegment.exCtl) = .ok (s0.node true) := op.run
    obtain ⟨y, hy⟩ := C111_possible (s := AvrProps.exSurr) (a := fun _ => CanNode.exAround) (fun _ _ => rfl) (fun _ _ _ => Nat.le_refl _) (lp ++ exTime false n)
      (fun mv h => (List.mem_append.1 h).elim (op.ok mv) fun h => (hl mv h).1) [] 0 (CanSegment.exMems 5 6 true) CanSegment.exCtl
    rw [Sys.run_append, hrun] at hy
    obtain ⟨s, hs1, hs2⟩ := lift_run (p := exParts) true (exTime false n) (s := s0) hy
    refine ⟨s0, s, ⟨by decide +kernel, by decide +kernel, by decide +kernel, by decide +kernel⟩, ?_, rfl, hs1, by simp [exNews, exLoop], ?_, ?_⟩
    · rw [List.append_nil]
      refine ⟨fun mv h => ?_, turn_behind true _ hn2, ?_, ?_, ?_⟩
      · rcases hq2 mv h with h | rfl | rfl
        · exact hn1 mv h
        · trivial
        · trivial
      · rintro j b ⟨i, h⟩
        have : exNews.all exAlone = true := by decide +kernel
        rcases hq2 _ h with h | h | h
        · cases List.all_eq_true.1 this _ h
        · cases h
        · cases h
      · intro i h
        rcases hq2 _ h with h | h | h
        · revert h; simp [exNews, exLoop, exSend]
        · cases h
        · cases h
      · rintro i ⟨x, y, h⟩
        have hno : true ∉ Spec.AvrSys.button (mine i (exNews ++ (exTime false n).map (Move.own true))) := by
          rw [mine_append, button_append]
          have h1 : ∀ i, true ∉ Spec.AvrSys.button (mine i exNews) := by decide +kernel
          have h2 : true ∉ Spec.AvrSys.button (mine i ((exTime false n).map (Move.own true))) := by
            refine ex_calm fun mv hm => ?_
            have : ∀ (l : List Sys.Move) mv, mv ∈ mine i (l.map (Move.own true)) → mv ∈ l := by
              intro l
              induction l with
              | nil => intro mv h; cases h
              | cons c l ih =>
                intro mv h
                simp only [List.map_cons, mine] at h
                split at h
                · rcases List.mem_cons.1 h with rfl | h
                  · exact List.mem_cons_self ..
                  · exact List.mem_cons_of_mem _ (ih mv h)
                · exact List.mem_cons_of_mem _ (ih mv h)
            rcases hq mv (this _ mv hm) with rfl | rfl
            · exact fun e => (by cases e)
            · exact fun e => (by cases e)
          exact fun h => (List.mem_append.1 h).elim (h1 i) h2
        refine hno ?_
        rw [h]
        exact List.mem_append_left _ (List.mem_append_right _ (List.mem_replicate.2 ⟨by decide, rfl⟩))
    · rw [mine_append, mine_map]
      exact hf
    · rw [mine_map, ht]
      exact hn

end Vscp.AvrSegment
