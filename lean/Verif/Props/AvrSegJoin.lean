/-
Property theorems: an AVR example on a CAN bus which looks for a nickname comes to an end (C132).
-/
import Verif.Props.AvrSegBeat
import Verif.Props.AvrJoin
import Verif.Props.Master

namespace Vscp.AvrSegment
open Vscp.Driver Vscp.Avr Vscp.Avr.Sys Vscp.CanSegment Vscp.Spec.AvrSegment
open Vscp.CanDrvProps Vscp.Safety
open Vscp.Spec (looking uses)
open Vscp.Spec.AvrSys (ticks Fast)

/-! ### How the search ends -/

/-- The event, if any, with which a segment master (nickname 0) gives a node without nickname the nickname `q`. -/
def Gives (e : Option Msg) (q : U8) : Prop := ∃ m, e = some m ∧ m.cls = 0 ∧ m.typ = 6 ∧ m.oAddr = 0 ∧ m.data[0] = 0xFF ∧ m.data[1] = q

/-- The ways out of the search: by itself, to a nickname or without one; or with the nickname which a master has given. -/
def Leaves (e : Option Msg) (w w' : W) : Prop := (w.v.st = .init ∧ (w'.v.st = .active ∨ w'.v.st = .idle)) ∨ (w.v.st = .preActive ∧ w'.v.st = .active ∧ Gives e w'.v.nick)

theorem cycle_leaves {c : Ctx} (hc : c.loopback = false) (rx : Option Msg) {w : W} (hl : looking w) : looking (Core.process c rx w).2 ∨ Leaves rx w (Core.process c rx w).2 := by
  have keep : ∀ {d : Disc}, disc (Core.process c rx w).2 = d → (d.st = .init ∨ d.st = .preActive) → looking (Core.process c rx w).2 := by
    rintro _ rfl h
    exact h
  have hd0 : (disc w).st = .init ∨ (disc w).st = .preActive := hl
  rcases hl with hst | hst
  · cases hist : w.v.ist with
    | probeMaster =>
      rcases cycle_probeMaster c rx w hst hist with ⟨-, -, hd⟩ | ⟨-, -, hd⟩
      · exact .inl (keep hd hd0)
      · exact .inl (keep hd hd0)
    | probeMasterWait =>
      obtain ⟨-, ⟨-, hd⟩ | ⟨-, hd | hd⟩⟩ := cycle_probeMasterWait c rx w hst hist
      · exact .inl (keep hd hd0)
      · exact .inl (keep hd (.inr rfl))
      · exact .inl (keep hd hd0)
    | probe =>
      rcases cycle_probe c rx w hst hist with ⟨-, -, hd⟩ | ⟨-, -, ⟨-, h⟩ | ⟨-, hd⟩⟩
      · exact .inl (keep hd hd0)
      · exact .inr (.inl ⟨hst, .inr h⟩)
      · exact .inl (keep hd hd0)
    | probeWait =>
      rcases cycle_probeWait c rx w hst hist with ⟨-, h, -, -⟩ | ⟨-, -, ⟨-, hd⟩ | ⟨-, hd⟩⟩
      · exact .inr (.inl ⟨hst, .inl h⟩)
      · exact .inl (keep hd hd0)
      · exact .inl (keep hd hd0)
  · have hrx : (Transport.readMessage c rx w).1 = rx := by
      unfold Transport.readMessage
      rw [hc]
      rfl
    rcases cycle_preActive c rx w hst with ⟨-, -, hd⟩ | ⟨hrn, h | ⟨-, hd⟩⟩
    · exact .inl (keep hd (.inl rfl))
    · by_cases hs : ∃ m, rx = some m ∧ MasterProps.sets m
      · obtain ⟨m, rfl, hm⟩ := hs
        obtain ⟨-, h2, -⟩ := MasterProps.cycle_pre_set c (some m) w hst hrn hrx hm
        exact .inr (.inr ⟨hst, h, m, rfl, hm.1, hm.2.1, hm.2.2.1, hm.2.2.2, h2.symm⟩)
      · have := MasterProps.cycle_pre_none c rx w hst (.inr fun m hm h => hs ⟨m, hrx.symm.trans hm, h⟩)
        rw [if_neg (by rw [hrn]; decide)] at this
        exact .inl (keep this hd0)
    · exact .inl (keep hd hd0)

theorem does_leaves {s : Surr} {a : Nat → CanNode.Around} {y y1 : State} {mv : Sys.Move} (hm : Spec.AvrSys.Alone mv) (hd : Does s a y mv y1) (hl : looking y.fw.w) :
    y1.fw.life = y.fw.life ∧ (looking y1.fw.w ∨ ∃ e, y1.heard = y.heard ++ e.toList ∧ Leaves e y.fw.w y1.fw.w) := by
  cases hd with
  | tick b => exact ⟨rfl, .inl hl⟩
  | power => exact hm.elim
  | rx f x hc => exact ⟨rfl, .inl hl⟩
  | tx x hc => exact ⟨rfl, .inl hl⟩
  | quiet hpc hp => exact ⟨rfl, .inl hl⟩
  | remember hpc => exact ⟨rfl, .inl hl⟩
  | notDue hpc hz => exact ⟨rfl, .inl hl⟩
  | segInit x hpc hp hl hc =>
    have e : (Avr.call s .startNodeSegmentInit y.fw).w = (stepOp (s.ctx y.fw.life) .startNodeSegmentInit y.fw.w).2 :=
      AvrProps.calm_op (s.stack y.fw.life) .startNodeSegmentInit y.fw.w fun rx h => (by cases h)
    refine ⟨rfl, .inl (.inl ?_)⟩
    show (Avr.call s .startNodeSegmentInit y.fw).w.v.st = .init
    obtain ⟨h1, h2⟩ := AvrProps.start_run (s.ctx y.fw.life) y.fw.w
    rw [e]
    by_cases h : y.fw.w.v.st = .init
    · rw [h1 h]; exact h
    · exact (h2 h).1
  | due x sw hpc hz hsw hc =>
    obtain ⟨k1, -⟩ := AvrProps.tick_call s 250 y.fw
    have e : (later s y.fw).w = (Avr.call s (.tick 250) y.fw).w := by rw [later_w, call_w]
    rw [← e] at k1
    refine ⟨later_life y.fw, .inl ?_⟩
    show (later s y.fw).w.v.st = .init ∨ (later s y.fw).w.v.st = .preActive
    rw [k1]
    exact hl
  | reset m ctl hpc hm' hr =>
    have := (AvrProps.reset_last s m y.fw (ok_small hm') hr).1
    rcases hl with h | h <;> rw [h] at this <;> cases this
  | cycle m x hpc hm' hr hc =>
    have e : (Avr.call s (.process m) y.fw).w = (Core.process (s.ctx y.fw.life) m y.fw.w).2 :=
      AvrProps.calm_op (s.stack y.fw.life) (.process m) y.fw.w fun _ _ => .inl (by rcases hl with h | h <;> rw [h] <;> decide)
    refine ⟨rfl, ?_⟩
    refine Or.imp id (fun h => ⟨m, rfl, h⟩) ?_
    show looking (Avr.call s (.process m) y.fw).w ∨ Leaves m y.fw.w (Avr.call s (.process m) y.fw).w
    rw [e]
    exact cycle_leaves rfl _ hl

theorem alone_like {mv : Sys.Move} {l : List Sys.Move} (h : noRx [mv] = noRx l) (hl : ∀ mv ∈ l, Spec.AvrSys.Alone mv) : Spec.AvrSys.Alone mv := by
  have sub : ∀ (l : List Sys.Move), ∀ x ∈ noRx l, x ∈ l := by
    intro l
    induction l with
    | nil => exact fun _ h => h
    | cons y l ih => cases y <;> simp_all [noRx]
  cases mv with
  | rx b => trivial
  | _ => exact hl _ (sub l _ (by rw [← h]; exact List.mem_singleton_self _))

theorem alone_all : ∀ {ld l : List Sys.Move}, noRx ld = noRx l → (∀ mv ∈ l, Spec.AvrSys.Alone mv) → ∀ mv ∈ ld, Spec.AvrSys.Alone mv := by
  intro ld l h hl mv hm
  have sub : ∀ (l : List Sys.Move), ∀ x ∈ noRx l, x ∈ l := by
    intro l
    induction l with
    | nil => exact fun _ h => h
    | cons y l ih => cases y <;> simp_all [noRx]
  have sup : ∀ (l : List Sys.Move), ∀ x ∈ l, (∀ b, x ≠ .rx b) → x ∈ noRx l := by
    intro l
    induction l with
    | nil => exact fun _ h => (by cases h)
    | cons y l ih =>
      intro x hx hn
      rcases List.mem_cons.1 hx with rfl | hx
      · cases x <;> first | exact absurd rfl (hn _) | exact List.mem_cons_self ..
      · have := ih x hx hn
        cases y <;> simp_all [noRx]
  cases mv with
  | rx b => trivial
  | _ => exact hl _ (sub l _ (by rw [← h]; exact sup ld _ hm (fun b h => by cases h)))

section
variable {ι : Type} [DecidableEq ι] {p : Parts ι}

/-- The move in which example `d` ends its search. -/
theorem first_out (htx : ∀ i n k, ((p.surr i).env n).txOk k = true) (d : ι) : ∀ (l : List (Move ι)) {s s' : Segment ι} {u : ι → Nat}, Sane p s u → (∀ mv ∈ l, Spec.AvrSegment.Ok mv) → InTurn u l →
    (∀ mv ∈ mine d l, Spec.AvrSys.Alone mv) → Spec.AvrSegment.run p l s = .ok s' → looking (s.node d).fw.w → ¬looking (s'.node d).fw.w →
    ∃ l1 mv l2 s1 s2, l = l1 ++ mv :: l2 ∧ Spec.AvrSegment.run p l1 s = .ok s1 ∧ Spec.AvrSegment.step p s1 mv = .ok s2 ∧ (s2.node d).fw.life = (s.node d).fw.life ∧
      (s1.node d).fw.life = (s.node d).fw.life ∧ ∃ e, (s2.node d).heard = (s1.node d).heard ++ e.toList ∧ Leaves e (s1.node d).fw.w (s2.node d).fw.w
  | [], s, s', u, _, _, _, _, e, hl, hn => by cases e; exact absurd hl hn
  | mv :: l, s, s', u, hs, hl, ht, hal, e, hlk, hn => by
    have hm := hl mv (List.mem_cons_self ..)
    have hmine : mine d (mv :: l) = mine d [mv] ++ mine d l := mine_append d [mv] l
    unfold Spec.AvrSegment.run at e
    cases hst : Spec.AvrSegment.step p s mv with
    | ub => rw [hst] at e; cases e
    | impossible => rw [hst] at e; cases e
    | ok s1 =>
      rw [hst] at e
      obtain ⟨h1, -⟩ := sim_step htx hs hm ht.1 hst
      have key : (s1.node d).fw.life = (s.node d).fw.life ∧ (looking (s1.node d).fw.w ∨ ∃ e, (s1.node d).heard = (s.node d).heard ++ e.toList ∧ Leaves e (s.node d).fw.w (s1.node d).fw.w) := by
        rcases own_move hs hm hst d with ⟨h, -⟩ | ⟨smv, h, hr, h'⟩
        · rw [h]; exact ⟨rfl, .inl hlk⟩
        · obtain ⟨y1, hd, -, hr1⟩ := run_does (l := []) (hs.inv d) (by simp) h hr
          cases hr1
          exact does_leaves (alone_like h' fun mv h => hal mv (by rw [hmine]; exact List.mem_append_left _ h)) hd hlk
      rcases key.2 with hk | hk
      · obtain ⟨l1, mv', l2, s2, s3, q1, q2, q3, q4, q5, q6⟩ := first_out htx d l h1 (fun mv h => hl mv (List.mem_cons_of_mem _ h)) ht.2
          (fun mv h => hal mv (by rw [hmine]; exact List.mem_append_right _ h)) e hk hn
        exact ⟨mv :: l1, mv', l2, s2, s3, by rw [q1]; rfl, (run_one hst).trans q2, q3, q4.trans key.1, q5.trans key.1, q6⟩
      · exact ⟨[], mv, l, s, s1, rfl, rfl, hst, key.1, rfl, hk⟩

theorem turn_upto : ∀ (l : List (Move ι)) {l' : List (Move ι)} {u : ι → Nat}, InTurn u (l ++ l') → InTurn u l
  | [], _, _, _ => trivial
  | _ :: l, _, _, h => ⟨h.1, turn_upto l h.2⟩

/-- C132: AVR examples on a CAN bus, each of them as a whole, whatever happens and whenever.  Example `d` looks for a nickname at `s0`; then ten minutes of its time pass, its main loop runs once in each
millisecond, its button is not pressed and it keeps its power.  Then the search comes to an end in this time, without a restart (in the move from `s1` to `s2`): either `d` takes a nickname by itself, and each lower one from
1 on was used by another example at some time before; or it gives up, and each nickname from 1 to 254 was used by another example at some time before; or it takes the nickname which it is given in an event of a segment master (class 0, type 6,
from the nickname 0, to 255) which it has just heard.  Provided that nothing
else than the examples answers probes, the adapters take the events, and the main loop of each example runs once between two frames of others. -/
theorem C132_ends (htx : ∀ i n k, ((p.surr i).env n).txOk k = true) (ps : ι → Nat → U8) (ctl : ι → CanDrv.State) (pre l : List (Move ι))
    (hl : ∀ mv ∈ pre ++ l, Spec.AvrSegment.Ok mv ∧ Reserved mv) (ht : InTurn (fun _ => 0) (pre ++ l)) {s0 s : Segment ι} (e0 : Spec.AvrSegment.run p pre (start p ps ctl) = .ok s0)
    (e : Spec.AvrSegment.run p l s0 = .ok s) {d : ι} (hlk : looking (s0.node d).fw.w) (hup : (s0.node d).pressed = false) (hal : ∀ mv ∈ mine d l, Spec.AvrSys.Alone mv)
    (hf : Fast (mine d (pre ++ l))) (hticks : 600000 ≤ ticks (mine d l)) :
    ∃ l1 mv l2 s1 s2, l = l1 ++ mv :: l2 ∧ Spec.AvrSegment.run p l1 s0 = .ok s1 ∧ Spec.AvrSegment.step p s1 mv = .ok s2 ∧ (s2.node d).fw.life = (s0.node d).fw.life ∧
      ((∃ q, (s1.node d).fw.w.v.st = .init ∧ (uses (s2.node d).fw.w q ∨ (s2.node d).fw.w.v.st = .idle ∧ q = 0xFF) ∧
          ∀ q' : U8, 1 ≤ q'.toNat → q'.toNat < q.toNat →
            ∃ a, a ≠ d ∧ ∃ pre' post s3, pre ++ l1 = pre' ++ post ∧ Spec.AvrSegment.run p pre' (start p ps ctl) = .ok s3 ∧ uses (s3.node a).fw.w q') ∨
        ((s1.node d).fw.w.v.st = .preActive ∧ ∃ m, (s2.node d).heard = (s1.node d).heard ++ [m] ∧ m.cls = 0 ∧ m.typ = 6 ∧ m.oAddr = 0 ∧ m.data[0] = 0xFF ∧ uses (s2.node d).fw.w m.data[1])) := by
  have hl1 := fun mv h => (hl mv (List.mem_append_left _ h)).1
  have hl2 := fun mv h => (hl mv (List.mem_append_right _ h)).1
  obtain ⟨hf0, -, u, hs0, ht0⟩ := sane_run htx pre l (sane_start htx ps ctl) (fitting_start ps ctl) hl1 ht e0
  obtain ⟨lp, op⟩ := own_run htx d pre (sane_start htx ps ctl) hl1 (turn_front pre ht) e0
  obtain ⟨ld, od⟩ := own_run htx d l hs0 hl2 ht0 e
  obtain ⟨l0, lq, past, n, ps', ctl', h1, h2, h3⟩ : ∃ l0 lq past n ps' ctl', lp = l0 ++ lq ∧ Sys.run (p.surr d) (p.around d) lq (boot (p.surr d) past n ps' ctl') = .ok (s0.node d) ∧ (s0.node d).fw.life = n := by
    have hr := op.run
    obtain ⟨k1, k2⟩ := run_lives lp (boot_inv [] 0 (ps d) (ctl d)) op.ok hr
    rcases Nat.eq_or_lt_of_le k1 with k | k
    · exact ⟨[], lp, [], 0, ps d, ctl d, rfl, hr, k.symm⟩
    · obtain ⟨l0, lq, past, ps', ctl', q1, q2⟩ := k2 k
      exact ⟨l0, lq, past, _, ps', ctl', q1, q2, rfl⟩
  have hfast : Fast (lq ++ ld) := by
    have : Fast (lp ++ ld) := by
      rw [← fast_noRx, noRx_append, op.like, od.like, ← noRx_append, ← mine_append, fast_noRx]
      exact hf
    rw [h1, List.append_assoc] at this
    exact fast_behind l0 this
  have hal' := alone_all od.like hal
  obtain ⟨k1, k2, y1, g1, g2, g3⟩ := C124_ends (htx d n) (fun mv h => op.ok mv (by rw [h1]; exact List.mem_append_right _ h)) (fun mv h => ⟨od.ok mv h, hal' mv h⟩) h2 od.run h3 hup hfast
    (by rw [← ticks_noRx, od.like, ticks_noRx]; exact hticks)
  -- the example does not look for a nickname any more at some time in the history of the segment
  obtain ⟨m1, m2, s3, b1, b2, b3⟩ : ∃ m1 m2 s3, l = m1 ++ m2 ∧ Spec.AvrSegment.run p m1 s0 = .ok s3 ∧ ¬looking (s3.node d).fw.w := by
    cases k2 with
    | nil =>
      rw [List.append_nil] at g1
      subst g1
      rw [od.run] at g2
      cases g2
      exact ⟨l, [], s, by simp, e, g3⟩
    | cons mv k2 =>
      obtain ⟨m1, smv, m2, s1, s2, q1, q2, q3, q4, q5, q6⟩ := od.back k1 mv k2 g1
      rw [q5] at g2
      cases g2
      exact ⟨m1, _, s1, q1, q2, g3⟩
  have hlm : ∀ mv ∈ m1, Spec.AvrSegment.Ok mv := fun mv h => hl2 mv (by rw [b1]; exact List.mem_append_left _ h)
  obtain ⟨l1, mv, l2, s1, s2, q1, q2, q3, q4, q5, q6⟩ := first_out htx d m1 hs0 hlm (turn_upto m1 (by rw [← b1]; exact ht0))
    (fun mv h => hal mv (by rw [b1, mine_append]; exact List.mem_append_left _ h)) b2 hlk b3
  have e1 : l = l1 ++ mv :: (l2 ++ m2) := by rw [b1, q1]; simp
  refine ⟨l1, mv, l2 ++ m2, s1, s2, e1, q2, q3, q4, ?_⟩
  have hall : ∀ mv' ∈ pre ++ l1 ++ [mv], Spec.AvrSegment.Ok mv' ∧ Reserved mv' := fun mv' h => hl mv' (by
    rw [e1]
    simp only [List.mem_append, List.mem_cons, List.not_mem_nil, or_false] at h ⊢
    rcases h with (h | h) | h
    · exact .inl h
    · exact .inr (.inl h)
    · exact .inr (.inr (.inl h)))
  have hturn : InTurn (fun _ => 0) (pre ++ l1 ++ [mv]) := turn_upto _ (l' := l2 ++ m2) (by rw [e1] at ht; simpa using ht)
  have in_use := fun q hi hq => C126_in_use htx ps ctl (pre ++ l1) mv hall hturn (run_both pre l1 e0 q2) q3 (d := d) (q := q) hi hq
  obtain ⟨ev, q6, q7⟩ := q6
  rcases q7 with ⟨hi, ha | hid⟩ | ⟨h1, h2, m, rfl, h3, h4, h5, h6, h7⟩
  · exact .inl ⟨_, hi, .inl ⟨ha, rfl⟩, in_use _ hi (.inl ⟨ha, rfl⟩)⟩
  · exact .inl ⟨0xFF, hi, .inr ⟨hid, rfl⟩, in_use _ hi (.inr ⟨hid, q4.trans q5.symm, rfl⟩)⟩
  · exact .inr ⟨h1, m, q6, h3, h4, h5, h6, h2, h7.symm⟩

end

/-! ### Two examples -/

/-- The hypotheses of `C132_ends` can be met: by the second one of two examples, which has no nickname. -/
theorem exJoins (n : Nat) (hn : 600000 ≤ n) : ∃ s0 s, (∀ mv ∈ exNews ++ (exTime false n).map (.own false), Spec.AvrSegment.Ok mv ∧ Reserved mv) ∧
    InTurn (fun _ => 0) (exNews ++ (exTime false n).map (.own false)) ∧ Spec.AvrSegment.run exParts exNews (exStart 5 0xFF) = .ok s0 ∧
    Spec.AvrSegment.run exParts ((exTime false n).map (.own false)) s0 = .ok s ∧ looking (s0.node false).fw.w ∧ (s0.node false).pressed = false ∧
    (∀ mv ∈ mine false ((exTime false n).map (.own false)), Spec.AvrSys.Alone mv) ∧ Fast (mine false (exNews ++ (exTime false n).map (.own false))) ∧
    600000 ≤ ticks (mine false ((exTime false n).map (.own false))) := by
  obtain ⟨ht, hf, hl⟩ := ex_time n
  have hn1 := exAlone_reserved (l := exNews) (by decide +kernel)
  have hn2 : InTurn (fun _ => 0) exNews := exTurn_ok _ _ (by decide +kernel)
  have hst : (match Spec.AvrSegment.run exParts exNews (exStart 5 0xFF) with
    | .ok s => decide ((s.node false).fw.w.v.st = .init ∧ (s.node false).pressed = false)
    | _ => false) = true := by decide +kernel
  cases e0 : Spec.AvrSegment.run exParts exNews (exStart 5 0xFF) with
  | ub => rw [e0] at hst; cases hst
  | impossible => rw [e0] at hst; cases hst
  | ok s0 =>
    rw [e0] at hst
    obtain ⟨h1, h2⟩ := of_decide_eq_true hst
    obtain ⟨lp, op⟩ := own_run ex_tx false exNews (sane_start ex_tx _ _) (fun mv h => (hn1 mv h).1) hn2 e0
    have hrun : Sys.run AvrProps.exSurr (fun _ => CanNode.exAround) lp (boot AvrProps.exSurr [] 0 (CanSegment.exMems 5 0xFF false) CanSegment.exCtl) = .ok (s0.node false) := op.run
    obtain ⟨y, hy⟩ := C111_possible (s := AvrProps.exSurr) (a := fun _ => CanNode.exAround) (fun _ _ => rfl) (fun _ _ _ => Nat.le_refl _) (lp ++ exTime false n)
      (fun mv h => (List.mem_append.1 h).elim (op.ok mv) fun h => (hl mv h).1) [] 0 (CanSegment.exMems 5 0xFF false) CanSegment.exCtl
    rw [Sys.run_append, hrun] at hy
    obtain ⟨s, hs1, -⟩ := lift_run (p := exParts) false (exTime false n) (s := s0) hy
    refine ⟨s0, s, fun mv h => ?_, turn_behind false _ hn2, rfl, hs1, .inl h1, h2, ?_, ?_, ?_⟩
    · rcases List.mem_append.1 h with h | h
      · exact hn1 mv h
      · obtain ⟨mv', h', rfl⟩ := List.mem_map.1 h
        refine ⟨(hl mv' h').1, ?_⟩
        cases mv' <;> first | trivial | exact absurd rfl ((hl _ h').2.2 _)
    · rw [mine_map]
      exact fun mv h => (hl mv h).2.1
    · rw [mine_append, mine_map]
      exact hf
    · rw [mine_map, ht]
      exact hn

/-- So the search of this one comes to an end. -/
example (n : Nat) (hn : 600000 ≤ n) : ∃ l1 l2 s1, (exTime false n).map (Move.own false) = l1 ++ l2 ∧ Spec.AvrSegment.run exParts (exNews ++ l1) (exStart 5 0xFF) = .ok s1 ∧ ¬looking (s1.node false).fw.w := by
  obtain ⟨s0, s, h1, h2, h3, h4, h5, h6, h7, h8, h9⟩ := exJoins n hn
  obtain ⟨l1, mv, l2, s1, s2, q1, q2, q3, -, q5⟩ := C132_ends (p := exParts) ex_tx _ _ exNews _ h1 h2 h3 h4 h5 h6 h7 h8 h9
  refine ⟨l1 ++ [mv], l2, s2, by rw [q1]; simp, run_both _ _ h3 (run_both _ _ q2 ((run_one q3).trans rfl)), fun hl => ?_⟩
  rcases q5 with ⟨q, -, h | ⟨h, -⟩, -⟩ | ⟨-, m, -, -, -, -, -, h⟩
  · rcases hl with hl | hl <;> rw [h.1] at hl <;> cases hl
  · rcases hl with hl | hl <;> rw [h] at hl <;> cases hl
  · rcases hl with hl | hl <;> rw [h.1] at hl <;> cases hl

end Vscp.AvrSegment
