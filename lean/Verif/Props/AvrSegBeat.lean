/-
Property theorems: AVR examples on a CAN bus hear the heartbeats of each other (C131).
-/
import Verif.Spec.AvrSegBeat
import Verif.Props.AvrEvents
import Verif.Props.AvrAnswers
import Verif.Props.AvrBeat

namespace Vscp.AvrSegment
open Vscp.Driver Vscp.Avr Vscp.Avr.Sys Vscp.CanSegment Vscp.Spec.AvrSegment
open Vscp.Driver.CanDrv (BusFrame)
open Vscp.CanDrvProps Vscp.Safety
open Vscp.Driver.CanNode (wireOf)
open Vscp.Spec (SameEvent payload)
open Vscp.Spec.CanDrv (Valid)
open Vscp.Spec.CanNode (taken frameOf Carries)
open Vscp.Spec.AvrSys (ticks stepsNow Fast Stays Beat)

/-! ### Histories of one example -/

/-- A history without the frames of others. -/
def noRx : List Sys.Move → List Sys.Move
  | [] => []
  | .rx _ :: l => noRx l
  | mv :: l => mv :: noRx l

theorem noRx_append : ∀ l l' : List Sys.Move, noRx (l ++ l') = noRx l ++ noRx l'
  | [], _ => rfl
  | mv :: l, l' => by cases mv <;> simp [noRx, noRx_append l l']

theorem ticks_noRx : ∀ l : List Sys.Move, ticks (noRx l) = ticks l
  | [] => rfl
  | mv :: l => by cases mv <;> simp [noRx, ticks, ticks_noRx l]

theorem stepsNow_noRx : ∀ l : List Sys.Move, stepsNow (noRx l) = stepsNow l
  | [] => rfl
  | mv :: l => by cases mv <;> simp [noRx, stepsNow, stepsNow_noRx l]

theorem fast_noRx : ∀ l : List Sys.Move, Fast (noRx l) ↔ Fast l
  | [] => Iff.rfl
  | mv :: l => by cases mv <;> simp [noRx, Fast, fast_noRx l, stepsNow_noRx l]

theorem fast_behind : ∀ l {l' : List Sys.Move}, Fast (l ++ l') → Fast l'
  | [], _, h => h
  | mv :: l, _, h => by cases mv <;> first | exact fast_behind l h.2 | exact fast_behind l h

/-- All events which an example sends are taken. -/
theorem does_taken {s : Surr} {a : Nat → CanNode.Around} {y y1 : State} {mv : Sys.Move} (hi : Inv s y) (hd : Does s a y mv y1) (hl : y1.fw.life = y.fw.life)
    (htx : ∀ k, (s.env y.fw.life).txOk k = true) {t : List Out} (ht : y1.fw.w.out = y.fw.w.out ++ t) {m : Msg} {r : Bool} (hm : .tx m r ∈ t) : r = true := by
  have call : ∀ {op : Op}, op.Ok → y1.fw.w = (stepOpC (s.ctx y.fw.life) (s.cb y.fw.life) op y.fw.w).2 → r = true := by
    intro op hop e
    obtain ⟨L, -, hs⟩ := stepOpC_steps (AvrProps.cb_ok _ : CbOk (s.cb y.fw.life)) hop hi.good.lb
    obtain ⟨t', ht', hall⟩ := steps_taken (c := s.ctx y.fw.life) rfl htx hs
    have : t = t' := by
      have h := ht'
      rw [show (node y).w.out = y.fw.w.out from rfl, show (node y).w = y.fw.w from rfl, ← e, ht] at h
      exact List.append_cancel_left h
    subst this
    exact hall _ _ hm
  have no : ∀ {w : W}, w.out = w.out ++ t → r = true := by
    intro w h
    have : t = [] := by simpa using h
    rw [this] at hm
    cases hm
  cases hd with
  | tick b => exact no ht
  | cycle m' x hpc hm' hr hc => exact call hm' rfl
  | reset m' ctl hpc hm' hr => exact absurd hl (Nat.succ_ne_self _)
  | segInit x hpc hp hl hc => exact call (op := .startNodeSegmentInit) trivial rfl
  | quiet hpc hp => exact no ht
  | remember hpc => exact no ht
  | due x sw hpc hz hsw hc => exact call (op := .tick 250) trivial (by rw [later_w])
  | notDue hpc hz => exact no ht
  | rx b x hc => exact no ht
  | tx x hc => exact no ht
  | power => exact absurd hl (Nat.succ_ne_self _)

section
variable {ι : Type} [DecidableEq ι] {p : Parts ι}

theorem mine_append (i : ι) : ∀ l l' : List (Move ι), mine i (l ++ l') = mine i l ++ mine i l'
  | [], _ => rfl
  | mv :: l, l' => by
    cases mv with
    | own j mv => by_cases h : j = i <;> simp [mine, h, mine_append i l l']
    | deliver j => simp [mine, mine_append i l l']

theorem run_both : ∀ (l l' : List (Move ι)) {s s1 s2 : Segment ι}, Spec.AvrSegment.run p l s = .ok s1 → Spec.AvrSegment.run p l' s1 = .ok s2 → Spec.AvrSegment.run p (l ++ l') s = .ok s2
  | [], l', s, s1, s2, e, e' => by cases e; exact e'
  | mv :: l, l', s, s1, s2, e, e' => by
    unfold Spec.AvrSegment.run at e
    cases hst : Spec.AvrSegment.step p s mv with
    | ub => rw [hst] at e; cases e
    | impossible => rw [hst] at e; cases e
    | ok s3 =>
      rw [hst] at e
      exact (run_one hst).trans (run_both l l' e e')

/-- A move of the segment in one example. -/
theorem own_move {s s' : Segment ι} {u : ι → Nat} (hs : Sane p s u) {mv : Move ι} (hm : Spec.AvrSegment.Ok mv) (e : Spec.AvrSegment.step p s mv = .ok s') (d : ι) :
    (s'.node d = s.node d ∧ noRx (mine d [mv]) = []) ∨
      ∃ smv, Spec.AvrSys.Ok smv ∧ Sys.run (p.surr d) (p.around d) [smv] (s.node d) = .ok (s'.node d) ∧ noRx [smv] = noRx (mine d [mv]) := by
  have one : ∀ {i : ι} {smv : Sys.Move} {rest : List BusFrame}, Spec.AvrSegment.act p s i smv rest = .ok s' →
      (d ≠ i ∧ s'.node d = s.node d) ∨ (d = i ∧ Sys.run (p.surr d) (p.around d) [smv] (s.node d) = .ok (s'.node d)) := by
    intro i smv rest e
    obtain ⟨y, hy, rfl⟩ := act_after e
    by_cases hd : d = i
    · subst hd
      refine .inr ⟨rfl, ?_⟩
      simp only [after, if_pos]
      show (match Sys.move (p.surr d) (p.around d) (s.node d) smv with | .ok y => Sys.run (p.surr d) (p.around d) [] y | .ub => .ub | .impossible => .impossible) = _
      rw [hy]
      rfl
    · exact .inl ⟨hd, by simp only [after, if_neg hd]⟩
  cases mv with
  | own i smv =>
    rcases one e with ⟨h1, h2⟩ | ⟨rfl, h2⟩
    · exact .inl ⟨h2, by simp [mine, Ne.symm h1, noRx]⟩
    · exact .inr ⟨smv, hm, h2, by simp [mine]⟩
  | deliver i =>
    simp only [Spec.AvrSegment.step] at e
    cases hb : s.inbox i with
    | nil => rw [hb] at e; cases e; exact .inl ⟨rfl, rfl⟩
    | cons b l =>
      rw [hb] at e
      have hv : Valid b := hs.sound.inbox i b (by show b ∈ s.inbox i; rw [hb]; exact List.mem_cons_self ..)
      rcases one e with ⟨h1, h2⟩ | ⟨rfl, h2⟩
      · exact .inl ⟨h2, rfl⟩
      · exact .inr ⟨.rx b, hv, h2, rfl⟩

/-- A history of the segment as a history of one example. -/
structure Own (p : Parts ι) (d : ι) (l : List (Move ι)) (s s' : Segment ι) (ld : List Sys.Move) : Prop where
  ok : ∀ mv ∈ ld, Spec.AvrSys.Ok mv
  run : Sys.run (p.surr d) (p.around d) ld (s.node d) = .ok (s'.node d)
  like : noRx ld = noRx (mine d l)
  back : ∀ l1 mv l2, ld = l1 ++ mv :: l2 → ∃ m1 smv m2 s1 s2, l = m1 ++ smv :: m2 ∧ Spec.AvrSegment.run p m1 s = .ok s1 ∧ Spec.AvrSegment.step p s1 smv = .ok s2 ∧
    Spec.AvrSegment.run p m2 s2 = .ok s' ∧ Sys.run (p.surr d) (p.around d) l1 (s.node d) = .ok (s1.node d) ∧ Sys.run (p.surr d) (p.around d) [mv] (s1.node d) = .ok (s2.node d)

theorem own_run (htx : ∀ i n k, ((p.surr i).env n).txOk k = true) (d : ι) : ∀ (l : List (Move ι)) {s s' : Segment ι} {u : ι → Nat}, Sane p s u → (∀ mv ∈ l, Spec.AvrSegment.Ok mv) → InTurn u l →
    Spec.AvrSegment.run p l s = .ok s' → ∃ ld, Own p d l s s' ld
  | [], s, s', u, _, _, _, e => by
    cases e
    exact ⟨[], fun _ h => (by cases h), rfl, rfl, fun l1 mv l2 h => absurd h (by simp)⟩
  | mv :: l, s, s', u, hs, hl, ht, e => by
    have hm := hl mv (List.mem_cons_self ..)
    unfold Spec.AvrSegment.run at e
    cases hst : Spec.AvrSegment.step p s mv with
    | ub => rw [hst] at e; cases e
    | impossible => rw [hst] at e; cases e
    | ok s1 =>
      rw [hst] at e
      obtain ⟨h1, -⟩ := sim_step htx hs hm ht.1 hst
      obtain ⟨ld, r1, r2, r3, r4⟩ := own_run htx d l h1 (fun mv h => hl mv (List.mem_cons_of_mem _ h)) ht.2 e
      have hmine : mine d (mv :: l) = mine d [mv] ++ mine d l := mine_append d [mv] l
      rcases own_move hs hm hst d with ⟨h, h'⟩ | ⟨smv, h, hr, h'⟩
      · refine ⟨ld, r1, by rw [← h]; exact r2, by rw [hmine, noRx_append, h']; exact r3, fun l1 mv' l2 e' => ?_⟩
        obtain ⟨m1, smv, m2, s2, s3, q1, q2, q3, q4, q5, q6⟩ := r4 l1 mv' l2 e'
        exact ⟨mv :: m1, smv, m2, s2, s3, by rw [q1]; rfl, (run_one hst).trans q2, q3, q4, by rw [← h]; exact q5, q6⟩
      · refine ⟨smv :: ld, fun mv hmv => ?_, ?_, ?_, fun l1 mv' l2 e' => ?_⟩
        · rcases List.mem_cons.1 hmv with rfl | hmv
          · exact h
          · exact r1 mv hmv
        · show Sys.run (p.surr d) (p.around d) ([smv] ++ ld) (s.node d) = _
          rw [Sys.run_append, hr]
          exact r2
        · rw [hmine, noRx_append, ← h', ← r3, ← noRx_append]
          rfl
        · cases l1 with
          | nil =>
            cases e'
            exact ⟨[], mv, l, s, s1, rfl, rfl, hst, e, rfl, hr⟩
          | cons x l1 =>
            cases e'
            obtain ⟨m1, smv', m2, s2, s3, q1, q2, q3, q4, q5, q6⟩ := r4 l1 mv' l2 rfl
            refine ⟨mv :: m1, smv', m2, s2, s3, by rw [q1]; rfl, (run_one hst).trans q2, q3, q4, ?_, q6⟩
            show Sys.run (p.surr d) (p.around d) ([smv] ++ l1) (s.node d) = _
            rw [Sys.run_append, hr]
            exact q5

theorem beat_same {s : Surr} {y : State} {m g : Msg} (h : Beat s y m) (hg : SameEvent m g) : Beat s y g :=
  ⟨hg.cls.trans h.cls, hg.typ.trans h.typ, hg.prio.trans h.prio, hg.origin.trans h.origin, hg.hard.trans h.hard, Eq.trans hg.data h.data⟩

/-- C131: AVR examples on a CAN bus, each of them as a whole, whatever happens and whenever, if the main loop of each example runs once between two frames of others.  In a piece `l` of history example `a` is
active and does not restart, more than 30 s of its time pass, and its main loop runs once in each millisecond.  Then `a` has sent a heartbeat in it (in the move before `s1`), with the nickname, the zone and the sub-zone
it had at this time.  And each other example `b` has heard this heartbeat since then as soon as nothing is on the way from and to both (at the end of any further history `l'`), if neither of both has restarted. -/
theorem C131_heartbeat (htx : ∀ i n k, ((p.surr i).env n).txOk k = true) (ps : ι → Nat → U8) (ctl : ι → CanDrv.State) (pre l : List (Move ι))
    (hl : ∀ mv ∈ pre ++ l, Spec.AvrSegment.Ok mv) (ht : InTurn (fun _ => 0) (pre ++ l)) {s0 s : Segment ι} (e0 : Spec.AvrSegment.run p pre (start p ps ctl) = .ok s0)
    (e : Spec.AvrSegment.run p l s0 = .ok s) {a : ι} (hla : (s.node a).fw.life = (s0.node a).fw.life) (hact : Remains p a l s0) (hf : Fast (mine a (pre ++ l))) (hticks : 30000 < ticks (mine a l)) :
    ∃ l1 mv l2 s1 s2 m, l = l1 ++ mv :: l2 ∧ Spec.AvrSegment.run p l1 s0 = .ok s1 ∧ Spec.AvrSegment.step p s1 mv = .ok s2 ∧ Spec.AvrSegment.run p l2 s2 = .ok s ∧
      m ∈ taken ((s2.node a).fw.w.out.drop (s1.node a).fw.w.out.length) ∧ Beat (p.surr a) (s2.node a) m ∧
      ∀ b l' s', b ≠ a → (∀ mv ∈ l', Spec.AvrSegment.Ok mv) → InTurn (fun _ => 0) (pre ++ l ++ l') → Spec.AvrSegment.run p l' s = .ok s' → (s'.node a).fw.life = (s0.node a).fw.life →
        (s'.node b).fw.life = (s1.node b).fw.life → Silent s' a → Silent s' b → ∃ g ∈ (s'.node b).heard.drop (s2.node b).heard.length, Beat (p.surr a) (s2.node a) g := by
  have hl1 := fun mv h => hl mv (List.mem_append_left _ h)
  have hl2 := fun mv h => hl mv (List.mem_append_right _ h)
  obtain ⟨hf0, -, u, hs0, ht0⟩ := sane_run htx pre l (sane_start htx ps ctl) (fitting_start ps ctl) hl1 ht e0
  obtain ⟨lp, op⟩ := own_run htx a pre (sane_start htx ps ctl) hl1 (turn_front pre ht) e0
  obtain ⟨ld, od⟩ := own_run htx a l hs0 hl2 ht0 e
  obtain ⟨l0, lq, past, n, ps', ctl', h1, h2, h3⟩ : ∃ l0 lq past n ps' ctl', lp = l0 ++ lq ∧ Sys.run (p.surr a) (p.around a) lq (boot (p.surr a) past n ps' ctl') = .ok (s0.node a) ∧ (s0.node a).fw.life = n := by
    have hr := op.run
    obtain ⟨k1, k2⟩ := run_lives lp (boot_inv [] 0 (ps a) (ctl a)) op.ok hr
    rcases Nat.eq_or_lt_of_le k1 with k | k
    · exact ⟨[], lp, [], 0, ps a, ctl a, rfl, hr, k.symm⟩
    · obtain ⟨l0, lq, past, ps', ctl', q1, q2⟩ := k2 k
      exact ⟨l0, lq, past, _, ps', ctl', q1, q2, rfl⟩
  have hfast : Fast (lq ++ ld) := by
    have : Fast (lp ++ ld) := by
      rw [← fast_noRx, noRx_append, op.like, od.like, ← noRx_append, ← mine_append, fast_noRx]
      exact hf
    rw [h1, List.append_assoc] at this
    exact fast_behind l0 this
  have hst : Stays (p.surr a) (p.around a) ld (s0.node a) := by
    intro l1 l2 y1 e1 e2
    cases l2 with
    | nil =>
      rw [List.append_nil] at e1
      subst e1
      rw [od.run] at e2
      cases e2
      exact hact l [] s (by simp) e
    | cons mv l2 =>
      obtain ⟨m1, smv, m2, s1, s2, q1, q2, q3, q4, q5, q6⟩ := od.back l1 mv l2 e1
      rw [q5] at e2
      cases e2
      exact hact m1 _ s1 q1 q2
  have hok : ∀ mv ∈ lq ++ ld, Spec.AvrSys.Ok mv := by
    intro mv h
    rcases List.mem_append.1 h with h | h
    · exact op.ok mv (by rw [h1]; exact List.mem_append_right _ h)
    · exact od.ok mv h
  obtain ⟨l1, mv, l2, y1, y2, t, m, ok, g1, g2, g3, g4, g5, g6⟩ := C119_least hok h2 od.run (hla.trans h3) hfast hst (by rw [← ticks_noRx, od.like, ticks_noRx]; exact hticks)
  obtain ⟨m1, smv, m2, s1, s2, q1, q2, q3, q4, q5, q6⟩ := od.back l1 mv l2 g1
  rw [q5] at g2
  cases g2
  rw [q6] at g3
  cases g3
  have hlm1 : ∀ mv ∈ m1, Spec.AvrSegment.Ok mv := fun mv h => hl2 mv (by rw [q1]; exact List.mem_append_left _ h)
  have hsm : Spec.AvrSegment.Ok smv := hl2 smv (by rw [q1]; exact List.mem_append_right _ (List.mem_cons_self ..))
  have hlm2 : ∀ mv ∈ m2, Spec.AvrSegment.Ok mv := fun mv h => hl2 mv (by rw [q1]; exact List.mem_append_right _ (List.mem_cons_of_mem _ h))
  rw [q1] at ht0 ht hl
  obtain ⟨hf1, lv1, u1, hs1, ht1⟩ := sane_run htx m1 (smv :: m2) hs0 hf0 hlm1 ht0 q2
  obtain ⟨hs2, h5⟩ := sim_step htx hs1 hsm ht1.1 q3
  have hf2 : Fitting (seg s2) := by
    rcases h5 with h5 | ⟨cmv, h5, h6⟩
    · rw [h5]; exact hf1
    · exact fitting_step htx hs1.sound hf1 h6.ok h6.calls h5
  have lv2 := life_own htx hs1 hsm ht1.1 q3
  have lv3 := (sane_run htx m2 [] hs2 hf2 hlm2 (by simpa using ht1.2) q4).2.1
  have a1 := lv1 a
  have a2 := lv2 a
  have a3 := lv3 a
  have htrue : ok = true := by
    obtain ⟨y3, hd, -, r3⟩ := run_does (l := []) (hs1.inv a) (by simp) (od.ok mv (by rw [g1]; exact List.mem_append_right _ (List.mem_cons_self ..))) q6
    cases r3
    exact does_taken (hs1.inv a) hd (by omega) (htx a _) g4 g5
  subst htrue
  have hm : m ∈ taken ((s2.node a).fw.w.out.drop (s1.node a).fw.w.out.length) := by
    rw [g4, List.drop_left]
    exact List.mem_filterMap.2 ⟨_, g5, rfl⟩
  have epre : Spec.AvrSegment.run p (pre ++ m1) (start p ps ctl) = .ok s1 := run_both pre m1 e0 q2
  refine ⟨m1, smv, m2, s1, s2, m, q1, q2, q3, q4, hm, g6, fun b l' s' hba hl' htl e' hla' hlb' ha hb => ?_⟩
  have htl' : InTurn (fun _ => 0) ((pre ++ m1) ++ smv :: (m2 ++ l')) := by rw [q1] at htl; simpa using htl
  have hlm3 : ∀ mv ∈ m2 ++ l', Spec.AvrSegment.Ok mv := fun mv h => (List.mem_append.1 h).elim (hlm2 mv) (hl' mv)
  have hpre : ∀ mv ∈ pre ++ m1, Spec.AvrSegment.Ok mv := fun mv h => (List.mem_append.1 h).elim (hl1 mv) (hlm1 mv)
  have hall : ∀ mv ∈ (pre ++ m1) ++ smv :: (m2 ++ l'), Spec.AvrSegment.Ok mv := by
    intro mv h
    rcases List.mem_append.1 h with h | h
    · exact hpre mv h
    · rcases List.mem_cons.1 h with rfl | h
      · exact hsm
      · exact hlm3 mv h
  obtain ⟨-, -, u1', hs1', ht1'⟩ := sane_run htx (pre ++ m1) (smv :: (m2 ++ l')) (sane_start htx ps ctl) (fitting_start ps ctl) hpre htl' epre
  obtain ⟨hs2', -⟩ := sim_step htx hs1' hsm ht1'.1 q3
  have q4' := run_both m2 l' q4 e'
  have lv4 := (sane_run htx (m2 ++ l') [] hs2' hf2 hlm3 (by simpa using ht1'.2) q4').2.1
  have a4 := lv4 a
  have b2 := lv2 b
  have b3 := lv4 b
  obtain ⟨n1, n2, s3, s4, k1, k2, k3, k4, m', t', k5, k6, -⟩ := C129_acts htx ps ctl (pre ++ m1) smv (m2 ++ l') hall htl' epre q3 q4' (Ne.symm hba)
    (by omega) hlb' ha hb hm
  refine ⟨m', ?_, beat_same g6 k5⟩
  have ht2 : InTurn (next u1' smv) (n1 ++ .own b .step :: n2) := by rw [← k1]; exact ht1'.2
  have hn1 : ∀ mv ∈ n1, Spec.AvrSegment.Ok mv := fun mv h => hlm3 mv (by rw [k1]; exact List.mem_append_left _ h)
  have hn2 : ∀ mv ∈ n2, Spec.AvrSegment.Ok mv := fun mv h => hlm3 mv (by rw [k1]; exact List.mem_append_right _ (List.mem_cons_of_mem _ h))
  obtain ⟨hf3, lv4, u3, hs3, ht3⟩ := sane_run htx n1 (.own b .step :: n2) hs2' hf2 hn1 ht2 k2
  obtain ⟨hf4, lv5, u4, hs4, ht4⟩ := sane_run htx [.own b .step] n2 hs3 hf3 (by intro mv h; cases List.mem_singleton.1 h; trivial) ht3 (run_one k3)
  have lv6 := (sane_run htx n2 [] hs4 hf4 hn2 (by simpa using ht4) k4).2.1 b
  have b4 := lv4 b
  have b5 := lv5 b
  obtain ⟨v, hv⟩ := heard_kept htx (j := b) n2 hs4 hf4 hn2 ht4 (by omega) k4
  obtain ⟨w, hw⟩ := heard_kept htx (j := b) n1 hs2' hf2 hn1 (turn_front n1 ht2) (by omega) k2
  rw [hv, k6, hw, List.append_assoc, List.append_assoc, List.drop_left]
  simp

end

/-! ### Two examples -/

/-- Moves of one example alone. -/
theorem lift_run {p : Parts Bool} (i : Bool) : ∀ (ls : List Sys.Move) {s : Segment Bool} {y : State}, Sys.run (p.surr i) (p.around i) ls (s.node i) = .ok y →
    ∃ s', Spec.AvrSegment.run p (ls.map (.own i)) s = .ok s' ∧ s'.node i = y
  | [], s, y, e => by cases e; exact ⟨s, rfl, rfl⟩
  | mv :: ls, s, y, e => by
    simp only [Sys.run] at e
    cases hm : Sys.move (p.surr i) (p.around i) (s.node i) mv with
    | ub => rw [hm] at e; cases e
    | impossible => rw [hm] at e; cases e
    | ok y1 =>
      rw [hm] at e
      have hst : Spec.AvrSegment.step p s (.own i mv) = .ok (after s i y1 (s.inbox i)) := by
        show Spec.AvrSegment.act p s i mv (s.inbox i) = _
        unfold Spec.AvrSegment.act
        rw [hm]
        rfl
      have hn : (after s i y1 (s.inbox i)).node i = y1 := by simp [after]
      obtain ⟨s', h1, h2⟩ := lift_run i ls (s := after s i y1 (s.inbox i)) (y := y) (by rw [hn]; exact e)
      exact ⟨s', (run_one hst).trans h1, h2⟩

theorem turn_behind {ls : List Sys.Move} (i : Bool) : ∀ (l : List (Move Bool)) {u : Bool → Nat}, InTurn u l → InTurn u (l ++ ls.map (.own i))
  | mv :: l, u, h => ⟨h.1, turn_behind i l h.2⟩
  | [], u, _ => by
    have : ∀ (ls : List Sys.Move) (u : Bool → Nat), InTurn u (ls.map (Move.own i)) := by
      intro ls
      induction ls with
      | nil => exact fun _ => trivial
      | cons mv ls ih => exact fun u => ⟨fun j h => (by cases h), ih _⟩
    exact this ls u

theorem mine_map (i : Bool) : ∀ ls : List Sys.Move, mine i (ls.map (Move.own i)) = ls
  | [] => rfl
  | mv :: ls => by simp [mine, mine_map i ls]

/-- The hypotheses of `C131_heartbeat` can be met: by the first one of two examples, more than 30 s after both have announced themselves. -/
example (n : Nat) (hn : 30000 < n) : ∃ s0 s, (∀ mv ∈ exNews ++ (exTime false n).map (.own true), Spec.AvrSegment.Ok mv) ∧ InTurn (fun _ => 0) (exNews ++ (exTime false n).map (.own true)) ∧
    Spec.AvrSegment.run exParts exNews (exStart 5 6) = .ok s0 ∧ Spec.AvrSegment.run exParts ((exTime false n).map (.own true)) s0 = .ok s ∧ (s.node true).fw.life = (s0.node true).fw.life ∧
    Remains exParts true ((exTime false n).map (.own true)) s0 ∧ Fast (mine true (exNews ++ (exTime false n).map (.own true))) ∧ 30000 < ticks (mine true ((exTime false n).map (.own true))) := by
  obtain ⟨ht, hf, hl⟩ := ex_time n
  have hn1 : ∀ mv ∈ exNews, Spec.AvrSegment.Ok mv := fun mv h => (exAlone_ok (by decide +kernel) mv h).1
  have hn2 : InTurn (fun _ => 0) exNews := exTurn_ok _ _ (by decide +kernel)
  have hst : (match Spec.AvrSegment.run exParts exNews (exStart 5 6) with
    | .ok s => decide ((s.node true).fw.life = 0 ∧ (s.node true).fw.w.v.st = .active ∧ (s.node true).pressed = false ∧ (s.node true).x.2.stored.length = (s.node true).heard.length)
    | _ => false) = true := by decide +kernel
  cases e0 : Spec.AvrSegment.run exParts exNews (exStart 5 6) with
  | ub => rw [e0] at hst; cases hst
  | impossible => rw [e0] at hst; cases hst
  | ok s0 =>
    rw [e0] at hst
    obtain ⟨h1, h2, h3, h4⟩ := of_decide_eq_true hst
    obtain ⟨lp, op⟩ := own_run ex_tx true exNews (sane_start ex_tx _ _) hn1 hn2 e0
    have hrun : Sys.run AvrProps.exSurr (fun _ => CanNode.exAround) lp (boot AvrProps.exSurr [] 0 (CanSegment.exMems 5 6 true) CanSegment.exCtl) = .ok (s0.node true) := op.run
    obtain ⟨y, hy⟩ := C111_possible (s := AvrProps.exSurr) (a := fun _ => CanNode.exAround) (fun _ _ => rfl) (fun _ _ _ => Nat.le_refl _) (lp ++ exTime false n)
      (fun mv h => (List.mem_append.1 h).elim (op.ok mv) fun h => (hl mv h).1) [] 0 (CanSegment.exMems 5 6 true) CanSegment.exCtl
    rw [Sys.run_append, hrun] at hy
    obtain ⟨q1, q2, -⟩ := C119_alone op.ok hl hrun hy h1 h2 h3 h4
    obtain ⟨s, hs1, hs2⟩ := lift_run (p := exParts) true (exTime false n) (s := s0) hy
    refine ⟨s0, s, fun mv h => ?_, turn_behind true _ hn2, rfl, hs1, by rw [hs2]; exact q1.trans h1.symm, fun l1 l2 s1 e1 e2 => ?_, ?_, ?_⟩
    · rcases List.mem_append.1 h with h | h
      · exact hn1 mv h
      · obtain ⟨mv', h', rfl⟩ := List.mem_map.1 h
        exact (hl mv' h').1
    · obtain ⟨k1, k2, ek, rfl, -⟩ := List.map_eq_append_iff.1 e1
      cases hr : Sys.run AvrProps.exSurr (fun _ => CanNode.exAround) k1 (s0.node true) with
      | ok y1 =>
        obtain ⟨s2, r1, r2⟩ := lift_run (p := exParts) true k1 (s := s0) hr
        rw [r1] at e2
        cases e2
        rw [r2]
        exact q2 k1 k2 y1 ek hr
      | ub => rw [ek] at hy; dsimp only at hy; rw [Sys.run_append, hr] at hy; cases hy
      | impossible => rw [ek] at hy; dsimp only at hy; rw [Sys.run_append, hr] at hy; cases hy
    · rw [mine_append, mine_map]
      exact hf
    · rw [mine_map, ht]
      exact hn

end Vscp.AvrSegment
