/-
Property theorems: an AVR example on a CAN bus which is not full finds a nickname (C133).
-/
import Verif.Spec.AvrFinds
import Verif.Props.AvrSegJoin

namespace Vscp.Avr.Sys
open Vscp.Driver Vscp.Spec Vscp.Discovery Vscp.Safety
open Vscp.Driver.CanNode (Around)

variable {s : Surr} {a : Nat → Around}

/-! ### The nicknames which an example tries -/

/-- An example which probes nicknames probes none below 1, and waits only for answers about 1 to 254. -/
def Ranged (d : Disc) : Prop := d.st = .init → (d.ist = .probe → 1 ≤ d.probe.toNat) ∧ (d.ist = .probeWait → 1 ≤ d.probe.toNat ∧ d.probe.toNat < 255)

theorem ranged_early {d : Disc} (h : d.st = .init → d.ist = .probeMaster ∨ d.ist = .probeMasterWait) : Ranged d := by
  intro hst
  refine ⟨fun e => ?_, fun e => ?_⟩ <;> rcases h hst with h | h <;> rw [e] at h <;> cases h

theorem cycle_ranged {c : Ctx} (h1 : c.startProbe = 1) (rx : Option Msg) {w : W} (h : Ranged (disc w)) : Ranged (disc (Core.process c rx w).2) := by
  have first : ∀ {d : Disc}, disc (Core.process c rx w).2 = { d with st := .init, ist := .probe, probe := c.startProbe } → Ranged (disc (Core.process c rx w).2) := by
    intro d e
    rw [e, h1]
    exact fun _ => ⟨fun _ => Nat.le_refl _, fun e => (by cases e)⟩
  have same : disc (Core.process c rx w).2 = disc w → Ranged (disc (Core.process c rx w).2) := fun e => e ▸ h
  by_cases hst : w.v.st = .init
  · cases hist : w.v.ist with
    | probeMaster =>
      rcases cycle_probeMaster c rx w hst hist with ⟨-, -, hd⟩ | ⟨-, -, hd⟩
      · exact same hd
      · rw [hd]; exact ranged_early fun _ => .inr rfl
    | probeMasterWait =>
      obtain ⟨-, ⟨-, hd⟩ | ⟨-, hd | hd⟩⟩ := cycle_probeMasterWait c rx w hst hist
      · rw [hd, h1]
        exact fun _ => ⟨fun _ => Nat.le_refl _, fun e => (by cases e)⟩
      · rw [hd]; exact fun e => (by cases e)
      · exact same hd
    | probe =>
      have hp : 1 ≤ w.v.probe.toNat := (h hst).1 hist
      rcases cycle_probe c rx w hst hist with ⟨-, -, hd⟩ | ⟨-, -, ⟨-, hd⟩ | ⟨hne, hd⟩⟩
      · exact same hd
      · intro e
        rw [show (disc (Core.process c rx w).2).st = _ from hd] at e
        cases e
      · rw [hd]
        refine fun _ => ⟨fun e => (by cases e), fun _ => ⟨hp, ?_⟩⟩
        show w.v.probe.toNat < 255
        have := w.v.probe.isLt
        have : w.v.probe.toNat ≠ 255 := fun e => hne (BitVec.eq_of_toNat_eq e)
        omega
    | probeWait =>
      obtain ⟨hp1, hp2⟩ : 1 ≤ w.v.probe.toNat ∧ w.v.probe.toNat < 255 := (h hst).2 hist
      rcases cycle_probeWait c rx w hst hist with ⟨-, hd, -, -⟩ | ⟨-, -, ⟨-, hd⟩ | ⟨-, hd⟩⟩
      · intro e
        rw [show (disc (Core.process c rx w).2).st = _ from hd] at e
        cases e
      · rw [hd]
        refine fun _ => ⟨fun _ => ?_, fun e => (by cases e)⟩
        show 1 ≤ (w.v.probe + 1).toNat
        rw [BitVec.toNat_add]
        show 1 ≤ (w.v.probe.toNat + 1) % 256
        omega
      · exact same hd
  · by_cases hp : w.v.st = .preActive
    · rcases cycle_preActive c rx w hp with ⟨-, -, hd⟩ | ⟨-, ha | ⟨-, hd⟩⟩
      · exact first hd
      · intro e
        rw [show (disc (Core.process c rx w).2).st = _ from ha] at e
        cases e
      · exact same hd
    · exact ranged_early fun e => .inl (K_cycle c rx w hst hp e)

theorem ranged_does {y y1 : State} {mv : Move} (hd : Does s a y mv y1) (h : Ranged (disc y.fw.w)) : Ranged (disc y1.fw.w) := by
  cases hd with
  | tick b => exact h
  | power => exact fun e => absurd e (init_not_init (s.ctx (y.fw.life + 1)) allOk (powerUp y.fw.w.ps))
  | reset m ctl hpc hm' hr => exact fun e => absurd e (init_not_init (s.ctx (y.fw.life + 1)) allOk (powerUp (Avr.call s (.process m) y.fw).w.ps))
  | rx f x hc => exact h
  | tx x hc => exact h
  | quiet hpc hp => exact h
  | remember hpc => exact h
  | notDue hpc hz => exact h
  | segInit x hpc hp hl hc =>
    have e : (Avr.call s .startNodeSegmentInit y.fw).w = (stepOp (s.ctx y.fw.life) .startNodeSegmentInit y.fw.w).2 :=
      AvrProps.calm_op (s.stack y.fw.life) .startNodeSegmentInit y.fw.w fun rx h => (by cases h)
    show Ranged (disc (Avr.call s .startNodeSegmentInit y.fw).w)
    obtain ⟨h1, h2⟩ := AvrProps.start_run (s.ctx y.fw.life) y.fw.w
    rw [e]
    by_cases hi : y.fw.w.v.st = .init
    · rw [h1 hi]; exact h
    · exact ranged_early fun _ => .inl (h2 hi).2.1
  | due x sw hpc hz hsw hc =>
    obtain ⟨k1, -⟩ := AvrProps.tick_call s 250 y.fw
    have e : (later s y.fw).w = (Avr.call s (.tick 250) y.fw).w := by rw [later_w, call_w]
    rw [← e] at k1
    show (later s y.fw).w.v.st = .init → ((later s y.fw).w.v.ist = .probe → 1 ≤ (later s y.fw).w.v.probe.toNat) ∧
      ((later s y.fw).w.v.ist = .probeWait → 1 ≤ (later s y.fw).w.v.probe.toNat ∧ (later s y.fw).w.v.probe.toNat < 255)
    rw [k1]
    exact h
  | cycle m x hpc hm' hr hc =>
    show Ranged (disc (Avr.call s (.process m) y.fw).w)
    by_cases ha : y.fw.w.v.st = .active
    · exact ranged_early fun e => .inl (active_begins (s := s) y.fw.life m ha e)
    · have e : (Avr.call s (.process m) y.fw).w = (Core.process (s.ctx y.fw.life) m y.fw.w).2 :=
        AvrProps.calm_op (s.stack y.fw.life) (.process m) y.fw.w fun _ _ => .inl ha
      rw [e]
      exact cycle_ranged rfl m h

theorem ranged_run : ∀ (l : List Move) {y y' : State}, Inv s y → (∀ mv ∈ l, AvrSys.Ok mv) → run s a l y = .ok y' → Ranged (disc y.fw.w) → Ranged (disc y'.fw.w)
  | [], y, y', _, _, hr, h => by cases hr; exact h
  | mv :: l, y, y', hi, hl, hr, h => by
    obtain ⟨y1, hd, h1, hr'⟩ := run_does hi (fun mv h => hl mv (List.mem_cons_of_mem _ h)) (hl _ (List.mem_cons_self ..)) hr
    exact ranged_run l h1 (fun mv h => hl mv (List.mem_cons_of_mem _ h)) hr' (ranged_does hd h)

/-- C125: an example which takes a nickname by itself takes one from 1 to 254, whatever happened before. -/
theorem C125_range {past : List Out} {n : Nat} {ps : Nat → U8} {ctl : CanDrv.State} {l : List Move} {mv : Move} (hl : ∀ mv ∈ l, AvrSys.Ok mv) (hm : AvrSys.Ok mv) {y y' : State}
    (hr : run s a l (boot s past n ps ctl) = .ok y) (hr' : run s a [mv] y = .ok y') (hst : y.fw.w.v.st = .init) (hst' : y'.fw.w.v.st = .active) :
    1 ≤ y'.fw.w.v.nick.toNat ∧ y'.fw.w.v.nick.toNat ≤ 254 := by
  obtain ⟨hw, -, h2, -⟩ := takes hl hm hr hr' hst hst'
  have h := (ranged_run l (boot_inv past n ps ctl) hl hr (fun e => absurd e (init_not_init (s.ctx n) allOk (powerUp ps)))) hst
  rw [h2]
  have := h.2 hw.2
  exact ⟨this.1, Nat.le_of_lt_succ this.2⟩

end Vscp.Avr.Sys

namespace Vscp.CanSegment
open Vscp.Spec.CanSegment Vscp.Driver

variable {ι : Type} [DecidableEq ι] {p : Parts ι}

/-- Where nothing else than a node gives nicknames, no node hears that it shall use another one. -/
theorem heard_modest (hp : Proper p) (hA : ∀ i k m, Vscp.Sends (p.cb i k) m → Ordinary m) {s s' : Segment ι} (hs : Sound p s) (h : Modesty s) {mv : Move ι} (hm : Spec.CanSegment.Ok mv)
    (hmo : Modest mv) (e : step p s mv = .ok s') {d : ι} (hl : s'.life d = s.life d) {m : Msg} (hh : (s'.node d).heard = (s.node d).heard ++ [m]) : ¬(m.cls = 0 ∧ m.typ = 6) := by
  have no : (s'.node d).heard = (s.node d).heard → False := fun e => by
    rw [e] at hh
    have := congrArg List.length hh
    simp at this
  cases mv with
  | own i cmv =>
    obtain ⟨-, t, ha⟩ := acted hp hs (mv := cmv) hm e
    by_cases hd : d = i
    · subst hd
      have he := ha.effect
      cases cmv with
      | cycle =>
        refine (modest_step hp hA hs h hm hmo e).2 d rfl m ?_
        rw [hh, List.drop_left]
        exact List.mem_singleton_self _
      | call op => exact (no he.2.2.1).elim
      | rx b => exact (no he.2.1).elim
      | tx => exact (no he.2.1).elim
    · exact (no (by rw [(ha.other d hd).1])).elim
  | deliver i =>
    simp only [step] at e
    cases hb : s.inbox i with
    | nil => rw [hb] at e; cases e; exact (no rfl).elim
    | cons b l =>
      rw [hb] at e
      obtain ⟨-, t, ha⟩ := acted hp hs (mv := .rx b) (hs.inbox i b (by rw [hb]; exact List.mem_cons_self ..)) e
      by_cases hd : d = i
      · subst hd; exact (no ha.effect.2.1).elim
      · exact (no (by rw [(ha.other d hd).1])).elim
  | power i ok ps ctl =>
    cases e
    by_cases hd : d = i
    · subst hd
      simp at hl
    · exact (no (by simp [hd])).elim

end Vscp.CanSegment

namespace Vscp.AvrSegment
open Vscp.Driver Vscp.Avr Vscp.Avr.Sys Vscp.CanSegment Vscp.Spec.AvrSegment
open Vscp.CanDrvProps Vscp.Safety
open Vscp.Spec (looking uses)
open Vscp.Spec.AvrSys (ticks Fast)

/-- Different numbers which belong to different elements of a list are not more than these. -/
theorem pigeons {ι : Type} [DecidableEq ι] {R : Nat → ι → Prop} (hR : ∀ k k' a, R k a → R k' a → k = k') : ∀ (n : Nat) (L : List ι), (∀ k < n, ∃ a ∈ L, R k a) → n ≤ L.length
  | 0, _, _ => Nat.zero_le _
  | n + 1, L, h => by
    obtain ⟨a, ha, hr⟩ := h n (Nat.lt_succ_self n)
    have := pigeons hR n (L.erase a) fun k hk => by
      obtain ⟨b, hb, hr'⟩ := h k (Nat.lt_succ_of_lt hk)
      refine ⟨b, (List.mem_erase_of_ne fun e => ?_).2 hb, hr'⟩
      subst e
      have := hR _ _ _ hr hr'
      omega
    rw [List.length_erase_of_mem ha] at this
    have := List.length_pos_of_mem ha
    omega

section
variable {ι : Type} [DecidableEq ι] {p : Parts ι}

theorem modesty_run (htx : ∀ i n k, ((p.surr i).env n).txOk k = true) : ∀ (l : List (Move ι)) {s s' : Segment ι} {u : ι → Nat}, Sane p s u → (∀ mv ∈ l, Spec.AvrSegment.Ok mv ∧ Modest mv) →
    InTurn u l → Modesty (seg s) → Spec.AvrSegment.run p l s = .ok s' → Modesty (seg s')
  | [], s, s', u, _, _, _, h, e => by cases e; exact h
  | mv :: l, s, s', u, hs, hl, ht, h, e => by
    obtain ⟨hm, hmo⟩ := hl mv (List.mem_cons_self ..)
    unfold Spec.AvrSegment.run at e
    cases hst : Spec.AvrSegment.step p s mv with
    | ub => rw [hst] at e; cases e
    | impossible => rw [hst] at e; cases e
    | ok s1 =>
      rw [hst] at e
      obtain ⟨h1, h2⟩ := sim_step htx hs hm ht.1 hst
      refine modesty_run htx l h1 (fun mv h => hl mv (List.mem_cons_of_mem _ h)) ht.2 ?_ e
      rcases h2 with h2 | ⟨cmv, h2, hf⟩
      · rw [h2]; exact h
      · exact (modest_step (proper htx) (fun i k => CanSegment.ordinary (p.surr i) k) hs.sound h hf.ok (hf.modest hmo) h2).1

/-- C133: AVR examples on a CAN bus, each of them as a whole, whatever happens and whenever; not more than 254 of them (all are in the list `all`).  Example `d` looks for a nickname at `s0`; then ten minutes of its
time pass, its main loop runs once in each millisecond, its button is not pressed and it keeps its power.  If none of the others uses different nicknames in the course of the whole history, then `d` finds a nickname in this
time without a restart (in the move from `s1` to `s2`), and this is not larger than the number of examples.  Provided that nothing else answers probes or gives nicknames, the adapters take the events, and the main loop of each
example runs once between two frames of others. -/
theorem C133_finds (htx : ∀ i n k, ((p.surr i).env n).txOk k = true) (ps : ι → Nat → U8) (ctl : ι → CanDrv.State) (pre l : List (Move ι)) (all : List ι) (hall : ∀ i, i ∈ all) (hmany : all.length ≤ 254)
    (hl : ∀ mv ∈ pre ++ l, Spec.AvrSegment.Ok mv ∧ Reserved mv ∧ Modest mv) (ht : InTurn (fun _ => 0) (pre ++ l)) {s0 s : Segment ι} (e0 : Spec.AvrSegment.run p pre (start p ps ctl) = .ok s0)
    (e : Spec.AvrSegment.run p l s0 = .ok s) {d : ι} (hlk : looking (s0.node d).fw.w) (hup : (s0.node d).pressed = false) (hal : ∀ mv ∈ mine d l, Spec.AvrSys.Alone mv)
    (hf : Fast (mine d (pre ++ l))) (hticks : 600000 ≤ ticks (mine d l)) (hone : ∀ a, a ≠ d → OneName p (start p ps ctl) (pre ++ l) a) :
    ∃ l1 mv l2 s1 s2 q, l = l1 ++ mv :: l2 ∧ Spec.AvrSegment.run p l1 s0 = .ok s1 ∧ Spec.AvrSegment.step p s1 mv = .ok s2 ∧ (s2.node d).fw.life = (s0.node d).fw.life ∧
      uses (s2.node d).fw.w q ∧ 1 ≤ q.toNat ∧ q.toNat ≤ all.length := by
  obtain ⟨l1, mv, l2, s1, s2, q1, q2, q3, q4, q6⟩ := C132_ends htx ps ctl pre l (fun mv h => ⟨(hl mv h).1, (hl mv h).2.1⟩) ht e0 e hlk hup hal hf hticks
  have e1 := run_both pre l1 e0 q2
  have hsub : ∀ mv' ∈ pre ++ l1, Spec.AvrSegment.Ok mv' ∧ Modest mv' := fun mv' h => by
    have := hl mv' (by rw [q1]; rcases List.mem_append.1 h with h | h <;> simp [h])
    exact ⟨this.1, this.2.2⟩
  have hmv := hl mv (by rw [q1]; simp)
  have ht' : InTurn (fun _ => 0) ((pre ++ l1) ++ mv :: l2) := by rw [q1] at ht; simpa using ht
  obtain ⟨-, -, u1, hs1, ht1⟩ := sane_run htx (pre ++ l1) (mv :: l2) (sane_start htx ps ctl) (fitting_start ps ctl) (fun mv h => (hsub mv h).1) ht' e1
  rcases q6 with ⟨q, hi, hq, hlow⟩ | ⟨hpre, m, hh, hc, hty, -⟩
  · -- the nicknames below belong to different examples
    have hcount : q.toNat - 1 ≤ (all.erase d).length := by
      refine pigeons (R := fun k a => a ≠ d ∧ ∃ q' : U8, q'.toNat = k + 1 ∧ ∃ pre' post s3, pre ++ l1 = pre' ++ post ∧ Spec.AvrSegment.run p pre' (start p ps ctl) = .ok s3 ∧ uses (s3.node a).fw.w q') ?_ _ _ ?_
      · rintro k k' a ⟨had, x, hx, r1, r2, r3, r4, r5, r6⟩ ⟨-, x', hx', r1', r2', r3', r4', r5', r6'⟩
        have := hone a had r1 (r2 ++ mv :: l2) r3 x r1' (r2' ++ mv :: l2) r3' x' (by rw [q1, ← List.append_assoc, r4, List.append_assoc]) r5 r6
          (by rw [q1, ← List.append_assoc, r4', List.append_assoc]) r5' r6'
        subst this
        omega
      · intro k hk
        have hlt := q.isLt
        have hkn : (BitVec.ofNat 8 (k + 1)).toNat = k + 1 := by
          rw [BitVec.toNat_ofNat]
          exact Nat.mod_eq_of_lt (by omega)
        obtain ⟨a, had, r⟩ := hlow (BitVec.ofNat 8 (k + 1)) (by rw [hkn]; omega) (by rw [hkn]; omega)
        exact ⟨a, (List.mem_erase_of_ne had).2 (hall a), had, _, hkn, r⟩
    have hpos := List.length_pos_of_mem (hall d)
    rw [List.length_erase_of_mem (hall d)] at hcount
    rcases hq with hq | ⟨-, rfl⟩
    · refine ⟨l1, mv, l2, s1, s2, q, q1, q2, q3, q4, hq, ?_, by omega⟩
      obtain ⟨lp, op⟩ := own_run htx d (pre ++ l1) (sane_start htx ps ctl) (fun mv h => (hsub mv h).1) (turn_front _ ht') e1
      rcases own_move hs1 hmv.1 q3 d with ⟨h, -⟩ | ⟨smv, h, hr, -⟩
      · have := hq.1
        rw [h, hi] at this
        cases this
      · have := (C125_range op.ok h op.run hr hi hq.1).1
        rwa [hq.2] at this
    · exact absurd hcount (by have : (0xFF : U8).toNat = 255 := rfl; omega)
  · -- nobody gives a nickname to the example
    have hlife : (s2.node d).fw.life = (s1.node d).fw.life := by
      obtain ⟨smv, h, hr⟩ : ∃ smv, Spec.AvrSys.Ok smv ∧ Sys.run (p.surr d) (p.around d) [smv] (s1.node d) = .ok (s2.node d) ∧ noRx [smv] = noRx (mine d [mv]) := by
        rcases own_move hs1 hmv.1 q3 d with ⟨h, -⟩ | h
        · rw [h] at hh
          have := congrArg List.length hh
          simp at this
        · exact h
      obtain ⟨y1, hd, -, hr1⟩ := run_does (l := []) (hs1.inv d) (by simp) h hr.1
      cases hr1
      refine (does_leaves (alone_like hr.2 fun mv' h => hal mv' ?_) hd (.inr hpre)).1
      rw [q1, show l1 ++ mv :: l2 = l1 ++ ([mv] ++ l2) from rfl, mine_append, mine_append]
      exact List.mem_append_right _ (List.mem_append_left _ h)
    have hmod := modesty_run htx (pre ++ l1) (sane_start htx ps ctl) hsub (turn_front _ ht') (modest_start (p := parts p) (fun _ => allOk) ps ctl) e1
    rcases (sim_step htx hs1 hmv.1 ht1.1 q3).2 with h2 | ⟨cmv, h2, hfit⟩
    · have : (s2.node d).heard = (s1.node d).heard := congrArg (fun x => ((Spec.CanSegment.Segment.node x) d).heard) h2
      rw [this] at hh
      have := congrArg List.length hh
      simp at this
    · exact absurd ⟨hc, hty⟩ (heard_modest (proper htx) (fun i k => CanSegment.ordinary (p.surr i) k) hs1.sound hmod hfit.ok (hfit.modest hmv.2.2) h2 (d := d) hlife hh)

end

/-! ### Two examples -/

theorem run_split {p : Parts Bool} : ∀ (l l' : List (Move Bool)) {s s2 : Segment Bool}, Spec.AvrSegment.run p (l ++ l') s = .ok s2 →
    ∃ s1, Spec.AvrSegment.run p l s = .ok s1 ∧ Spec.AvrSegment.run p l' s1 = .ok s2
  | [], l', s, s2, e => ⟨s, rfl, e⟩
  | mv :: l, l', s, s2, e => by
    rw [List.cons_append] at e
    unfold Spec.AvrSegment.run at e
    cases hst : Spec.AvrSegment.step p s mv with
    | ub => rw [hst] at e; cases e
    | impossible => rw [hst] at e; cases e
    | ok s3 =>
      rw [hst] at e
      obtain ⟨s1, h1, h2⟩ := run_split l l' e
      exact ⟨s1, (run_one hst).trans h1, h2⟩

theorem lift_other : ∀ (ls : List Sys.Move) {s s' : Segment Bool}, Spec.AvrSegment.run exParts (ls.map (.own false)) s = .ok s' → s'.node true = s.node true
  | [], s, s', e => by cases e; rfl
  | mv :: ls, s, s', e => by
    unfold Spec.AvrSegment.run at e
    simp only [List.map_cons] at e
    cases hst : Spec.AvrSegment.step exParts s (.own false mv) with
    | ub => rw [hst] at e; cases e
    | impossible => rw [hst] at e; cases e
    | ok s1 =>
      rw [hst] at e
      rw [lift_other ls e]
      obtain ⟨y, -, rfl⟩ := act_after (show Spec.AvrSegment.act exParts s false mv (s.inbox false) = .ok s1 from hst)
      simp [after]

/-- The first one of the two examples keeps its nickname. -/
theorem exOne (n : Nat) : OneName exParts (exStart 5 0xFF) (exNews ++ (exTime false n).map (.own false)) true := by
  have five : ∀ l1 l2 s1 q, exNews ++ (exTime false n).map (Move.own false) = l1 ++ l2 → Spec.AvrSegment.run exParts l1 (exStart 5 0xFF) = .ok s1 → uses (s1.node true).fw.w q → q = 5 := by
    intro l1 l2 s1 q e hr hu
    have small : ∀ k s1, Spec.AvrSegment.run exParts (exNews.take k) (exStart 5 0xFF) = .ok s1 → (s1.node true).fw.w.v.st = .active → (s1.node true).fw.w.v.nick = 5 := by
      have hd : ((List.range (exNews.length + 1)).all fun k => match Spec.AvrSegment.run exParts (exNews.take k) (exStart 5 0xFF) with
        | .ok s => decide ((s.node true).fw.w.v.st = .active → (s.node true).fw.w.v.nick = 5)
        | _ => false) = true := by decide +kernel
      intro k s1 hr
      have hk : exNews.take k = exNews.take (min k exNews.length) := by rw [List.take_eq_take_iff]; omega
      rw [hk] at hr
      have := List.all_eq_true.1 hd (min k exNews.length) (List.mem_range.2 (by omega))
      rw [hr] at this
      exact of_decide_eq_true this
    have node : ∃ k s2, Spec.AvrSegment.run exParts (exNews.take k) (exStart 5 0xFF) = .ok s2 ∧ s1.node true = s2.node true := by
      rcases List.append_eq_append_iff.1 e with ⟨t, h1, h2⟩ | ⟨t, h1, h2⟩
      · subst h1
        obtain ⟨t1, t2, ek, rfl, -⟩ := List.map_eq_append_iff.1 h2
        obtain ⟨s2, h3, h4⟩ := run_split exNews _ hr
        exact ⟨exNews.length, s2, by rw [List.take_length]; exact h3, lift_other t1 h4⟩
      · exact ⟨l1.length, s1, by rw [h1, List.take_left]; exact hr, rfl⟩
    obtain ⟨k, s2, h1, h2⟩ := node
    have := small k s2 h1 (by rw [← h2]; exact hu.1)
    rw [← h2, hu.2] at this
    exact this
  intro l1 l2 s1 q l1' l2' s1' q' e1 e2 e3 f1 f2 f3
  rw [five l1 l2 s1 q e1 e2 e3, five l1' l2' s1' q' f1 f2 f3]

/-- The hypotheses of `C133_finds` can be met: of two examples the second one, which has no nickname, finds one, which is 1 or 2. -/
example (n : Nat) (hn : 600000 ≤ n) : ∃ l1 l2 s1 q, exNews ++ (exTime false n).map (.own false) = l1 ++ l2 ∧ Spec.AvrSegment.run exParts l1 (exStart 5 0xFF) = .ok s1 ∧
    uses (s1.node false).fw.w q ∧ (q = 1 ∨ q = 2) := by
  obtain ⟨s0, s, h1, h2, h3, h4, h5, h6, h7, h8, h9⟩ := exJoins n hn
  have hmo : ∀ mv ∈ exNews ++ (exTime false n).map (.own false), Modest mv := by
    intro mv h
    rcases List.mem_append.1 h with h | h
    · exact (exAlone_ok (l := exNews) (by decide +kernel) mv h).2
    · obtain ⟨mv', h', rfl⟩ := List.mem_map.1 h
      cases mv' <;> first | trivial | exact absurd rfl ((((ex_time n).2.2) _ h').2.2 _)
  obtain ⟨l1, mv, l2, s1, s2, q, q1, q2, q3, -, q5, q6, q7⟩ := C133_finds (p := exParts) ex_tx _ _ exNews _ [true, false] (by decide) (by decide) (fun mv h => ⟨(h1 mv h).1, (h1 mv h).2, hmo mv h⟩) h2 h3 h4 h5 h6 h7 h8 h9
    (fun a ha => by cases a with | false => exact absurd rfl ha | true => exact exOne n)
  refine ⟨exNews ++ l1 ++ [mv], l2, s2, q, by rw [q1]; simp, run_both _ _ (run_both _ _ h3 q2) ((run_one q3).trans rfl), q5, ?_⟩
  have : q.toNat ≤ 2 := q7
  rcases (by omega : q.toNat = 1 ∨ q.toNat = 2) with h | h
  · exact .inl (BitVec.eq_of_toNat_eq h)
  · exact .inr (BitVec.eq_of_toNat_eq h)

end Vscp.AvrSegment
