/-
Property theorems: the heartbeats after losses of power in a configured segment of AVR examples (C139).
-/
import Verif.Props.AvrPower

namespace Vscp.AvrSegment
open Vscp.Driver Vscp.Avr Vscp.Avr.Sys Vscp.CanSegment Vscp.Spec.AvrSegment
open Vscp.CanDrvProps Vscp.Safety
open Vscp.Spec (uses)
open Vscp.Spec.AvrSys (ticks Fast Beat)
open Vscp.Spec.CanNode (taken)

section
variable {ι : Type} [DecidableEq ι] {p : Parts ι}

theorem unharmed_front {f : ι → U8} {l l' : List (Move ι)} (h : Unharmed f (l ++ l')) : Unharmed f l where
  ok := fun mv hm => h.ok mv (List.mem_append_left _ hm)
  turn := turn_front l h.turn
  harmless := fun i b ⟨j, hb⟩ => h.harmless i b ⟨j, List.mem_append_left _ hb⟩
  button := fun i ⟨x, y, e⟩ => h.button i ⟨x, y ++ Spec.AvrSys.button (mine i l'), by rw [mine_append, button_append, e, List.append_assoc (x ++ _)]⟩

/-- An example which does not lose its power. -/
theorem powered {i : ι} : ∀ (l' l : List (Move ι)), .own i .power ∉ l' → losses i (l ++ l') = losses i l ∧ (awake i l = true → awake i (l ++ l') = true) := by
  intro l'
  induction l' with
  | nil => intro l _; rw [List.append_nil]; exact ⟨rfl, id⟩
  | cons mv l' ih =>
    intro l h
    obtain ⟨h1, h2⟩ := ih (l ++ [mv]) fun hm => h (List.mem_cons_of_mem _ hm)
    rw [List.append_assoc] at h1 h2
    have hp : mv ≠ .own i .power := fun e => h (e ▸ List.mem_cons_self ..)
    by_cases hs : mv = .own i .step
    · subst hs
      refine ⟨h1.trans losses_step, fun _ => h2 ?_⟩
      unfold awake
      rw [List.foldl_append]
      simp
    · obtain ⟨k1, k2⟩ := awake_other (l := l) hs hp
      exact ⟨h1.trans k2, fun hw => h2 (k1.trans hw)⟩

/-- C139: AVR examples on a CAN bus, each of them as a whole, with different nicknames in their memories, which lose their power whenever and however often.  The main loop of example `a` has begun since its last loss of power
before `s0`; then it has power, more than 30 s of its time pass, and its main loop runs once in each millisecond.  Then `a` has sent a heartbeat in this time (in the move before `s2`) with the nickname from its memory; and each
other example `b` which has had power since then has heard it as soon as nothing is on the way from and to both (at the end of any further history `l'`), whatever happens to the power of all others. -/
theorem C139_return (htx : ∀ i n k, ((p.surr i).env n).txOk k = true) (ps : ι → Nat → U8) (ctl : ι → CanDrv.State) {f : ι → U8} (hc : Configured p ps f) (pre l l' : List (Move ι)) (hu : Unharmed f (pre ++ l ++ l'))
    {s0 s s' : Segment ι} (e0 : Spec.AvrSegment.run p pre (start p ps ctl) = .ok s0) (e : Spec.AvrSegment.run p l s0 = .ok s) (e' : Spec.AvrSegment.run p l' s = .ok s') {a : ι} (ha : awake a pre = true)
    (hp : .own a .power ∉ l) (hf : Fast (mine a (pre ++ l))) (hticks : 30000 < ticks (mine a l)) :
    ∃ l1 mv l2 s1 s2 m, l = l1 ++ mv :: l2 ∧ Spec.AvrSegment.run p l1 s0 = .ok s1 ∧ Spec.AvrSegment.step p s1 mv = .ok s2 ∧
      m ∈ taken ((s2.node a).fw.w.out.drop (s1.node a).fw.w.out.length) ∧ Beat (p.surr a) (s2.node a) m ∧ m.oAddr = f a ∧
      ∀ b, b ≠ a → .own a .power ∉ l' → .own b .power ∉ mv :: l2 ++ l' → Silent s' a → Silent s' b → ∃ g ∈ (s'.node b).heard.drop (s2.node b).heard.length, Beat (p.surr a) (s2.node a) g ∧ g.oAddr = f a := by
  have sec : ∀ {l l' : List (Move ι)}, Unharmed f (l ++ l') → ∀ {s : Segment ι}, Spec.AvrSegment.run p l (start p ps ctl) = .ok s → ∀ i, (s.node i).fw.life = losses i l ∧ (awake i l = true → uses (s.node i).fw.w (f i)) :=
    fun h _ e i => have k := C138_power htx ps ctl hc _ (unharmed_front h) e i
      ⟨k.2.1, k.2.2.1⟩
  have h0 := sec (l := pre) (l' := l ++ l') (by rw [← List.append_assoc]; exact hu) e0
  have h1 := sec hu (run_both pre l e0 e)
  have h2 := sec (l := pre ++ l ++ l') (l' := []) (by rw [List.append_nil]; exact hu) (run_both _ l' (run_both pre l e0 e) e')
  have hact : Remains p a l s0 := fun l1 l2 s1 r1 r2 =>
    ((sec (l := pre ++ l1) (l' := l2 ++ l') (by rw [r1] at hu; simpa using hu) (run_both pre l1 e0 r2) a).2 ((powered l1 pre fun h => hp (r1 ▸ List.mem_append_left _ h)).2 ha)).1
  have hu1 := unharmed_front hu
  have hla : (s.node a).fw.life = (s0.node a).fw.life := by rw [(h1 a).1, (h0 a).1, (powered l pre hp).1]
  obtain ⟨l1, mv, l2, s1, s2, m, q1, q2, q3, q4, q5, q6, q7⟩ := C131_heartbeat htx ps ctl pre l hu1.ok hu1.turn e0 e (a := a) hla hact hf hticks
  have k1 := sec (l := pre ++ l1) (l' := mv :: l2 ++ l') (by rw [q1] at hu; simpa using hu) (run_both pre l1 e0 q2)
  have k2 := sec (l := pre ++ l1 ++ [mv]) (l' := l2 ++ l') (by rw [q1] at hu; simpa using hu) (run_both _ [mv] (run_both pre l1 e0 q2) (run_one q3)) a
  have hn : (s2.node a).fw.w.v.nick = f a := by
    refine (k2.2 ?_).2
    rw [List.append_assoc]
    refine (powered (l1 ++ [mv]) pre fun h => hp ?_).2 ha
    rw [q1]
    rcases List.mem_append.1 h with h | h
    · exact List.mem_append_left _ h
    · exact List.mem_append_right _ (by rw [List.mem_singleton.1 h]; exact List.mem_cons_self ..)
  refine ⟨l1, mv, l2, s1, s2, m, q1, q2, q3, q5, q6, q6.origin.trans hn, fun b hb hpa hpb hsa hsb => ?_⟩
  have la : (s'.node a).fw.life = (s0.node a).fw.life := by rw [(h2 a).1, (powered l' _ hpa).1, ← (h1 a).1, hla]
  have lb : (s'.node b).fw.life = (s1.node b).fw.life := by
    have e : pre ++ l ++ l' = pre ++ l1 ++ (mv :: l2 ++ l') := by rw [q1]; simp
    rw [(h2 b).1, (k1 b).1, e, (powered _ _ hpb).1]
  obtain ⟨g, hg, hbeat⟩ := q7 b l' s' hb (fun mv h => hu.ok mv (List.mem_append_right _ h)) hu.turn e' la lb hsa hsb
  exact ⟨g, hg, hbeat, hbeat.origin.trans hn⟩

end

/-- Both examples announce themselves, the first one loses its power and begins again. -/
def exBack : List (Move Bool) := exNews ++ .own true .power :: exLoop true

/-- The hypotheses of `C139_return` can be met: by the first one of two examples, more than 30 s after it has begun again. -/
example (n : Nat) (hn : 30000 < n) : ∃ s0 s, Configured exParts (CanSegment.exMems 5 6) (fun i => if i then 5 else 6) ∧
    Unharmed (fun i : Bool => if i then 5 else 6) (exBack ++ (exTime false n).map (.own true) ++ []) ∧
    Spec.AvrSegment.run exParts exBack (exStart 5 6) = .ok s0 ∧ Spec.AvrSegment.run exParts ((exTime false n).map (.own true)) s0 = .ok s ∧ awake true exBack = true ∧ losses true exBack = 1 ∧
    .own true .power ∉ (exTime false n).map (Move.own true) ∧ Fast (mine true (exBack ++ (exTime false n).map (.own true))) ∧ 30000 < ticks (mine true ((exTime false n).map (.own true))) := by
  obtain ⟨ht, hf, hl⟩ := ex_time n
  have hn1 : ∀ mv ∈ exBack, Spec.AvrSegment.Ok mv := fun mv h => (exAlone_ok (by decide +kernel) mv h).1
  have hn2 : InTurn (fun _ => 0) exBack := exTurn_ok _ _ (by decide +kernel)
  have hq : ∀ mv ∈ exTime false n, mv = .tick false ∨ mv = .step := by
    intro mv hm
    simp only [exTime, List.mem_flatten, List.mem_replicate] at hm
    obtain ⟨_, ⟨-, rfl⟩, h⟩ := hm
    revert mv h
    simp [exMs]
  have hq1 : ∀ mv ∈ (exTime false n).map (Move.own true), mv = .own true (.tick false) ∨ mv = .own true .step := by
    intro mv hm
    obtain ⟨mv', h', rfl⟩ := List.mem_map.1 hm
    rcases hq mv' h' with rfl | rfl
    · exact .inl rfl
    · exact .inr rfl
  have hsome : (exLook (Spec.AvrSegment.run exParts exBack (exStart 5 6))).isSome = true := by decide +kernel
  cases e0 : Spec.AvrSegment.run exParts exBack (exStart 5 6) with
  | ub => rw [e0] at hsome; cases hsome
  | impossible => rw [e0] at hsome; cases hsome
  | ok s0 =>
    obtain ⟨lp, op⟩ := own_run ex_tx true exBack (sane_start ex_tx _ _) hn1 hn2 e0
    have hrun : Sys.run AvrProps.exSurr (fun _ => CanNode.exAround) lp (boot AvrProps.exSurr [] 0 (CanSegment.exMems 5 6 true) CanSegment.exCtl) = .ok (s0.node true) := op.run
    obtain ⟨y, hy⟩ := C111_possible (s := AvrProps.exSurr) (a := fun _ => CanNode.exAround) (fun _ _ => rfl) (fun _ _ _ => Nat.le_refl _) (lp ++ exTime false n)
      (fun mv h => (List.mem_append.1 h).elim (op.ok mv) fun h => (hl mv h).1) [] 0 (CanSegment.exMems 5 6 true) CanSegment.exCtl
    rw [Sys.run_append, hrun] at hy
    obtain ⟨s, hs1, hs2⟩ := lift_run (p := exParts) true (exTime false n) (s := s0) hy
    refine ⟨s0, s, ⟨by decide +kernel, by decide +kernel, by decide +kernel, by decide +kernel⟩, ?_, rfl, hs1, by decide +kernel, by decide +kernel, ?_, ?_, ?_⟩
    · rw [List.append_nil]
      refine ⟨fun mv h => ?_, turn_behind true _ hn2, ?_, ?_⟩
      · rcases List.mem_append.1 h with h | h
        · exact hn1 mv h
        · rcases hq1 mv h with rfl | rfl <;> trivial
      · rintro j b ⟨i, h⟩
        have : exBack.all exAlone = true := by decide +kernel
        rcases List.mem_append.1 h with h | h
        · cases List.all_eq_true.1 this _ h
        · rcases hq1 _ h with h | h <;> cases h
      · rintro i ⟨x, y, h⟩
        have hno : true ∉ Spec.AvrSys.button (mine i (exBack ++ (exTime false n).map (Move.own true))) := by
          rw [mine_append, button_append]
          have h1 : ∀ i, true ∉ Spec.AvrSys.button (mine i exBack) := by decide +kernel
          have h2 : true ∉ Spec.AvrSys.button (mine i ((exTime false n).map (Move.own true))) := by
            refine ex_calm fun mv hm => ?_
            have : ∀ (l : List Sys.Move) mv, mv ∈ mine i (l.map (Move.own true)) → mv ∈ l := by
              intro l
              induction l with
              | nil => intro mv h; cases h
              | cons c l ih =>
                intro mv h
                simp only [List.map_cons, mine] at h
                split at h
                · rcases List.mem_cons.1 h with rfl | h
                  · exact List.mem_cons_self ..
                  · exact List.mem_cons_of_mem _ (ih mv h)
                · exact List.mem_cons_of_mem _ (ih mv h)
            rcases hq mv (this _ mv hm) with rfl | rfl
            · exact fun e => (by cases e)
            · exact fun e => (by cases e)
          exact fun h => (List.mem_append.1 h).elim (h1 i) h2
        refine hno ?_
        rw [h]
        exact List.mem_append_left _ (List.mem_append_right _ (List.mem_replicate.2 ⟨by decide, rfl⟩))
    · intro h
      rcases hq1 _ h with h | h <;> cases h
    · rw [mine_append, mine_map]
      exact hf
    · rw [mine_map, ht]
      exact hn

end Vscp.AvrSegment
