/-
Property theorems: an event of an AVR example makes the others execute the rows of their decision matrix, and their events come back (C129).
-/
import Verif.Props.CanEvents
import Verif.Props.AvrHeard

namespace Vscp.AvrSegment
open Vscp.Driver Vscp.Avr Vscp.Avr.Sys Vscp.CanSegment Vscp.Spec.AvrSegment
open Vscp.Driver.CanDrv (BusFrame)
open Vscp.CanDrvProps Vscp.Safety
open Vscp.Driver.CanNode (wireOf)
open Vscp.Spec (SameEvent)
open Vscp.Spec.CanNode (taken frameOf Carries)
open Vscp.Spec.Avr (Reacts)

section
variable {ι : Type} [DecidableEq ι] {p : Parts ι}

theorem run_one {s s1 : Segment ι} {mv : Move ι} {l : List (Move ι)} (e : Spec.AvrSegment.step p s mv = .ok s1) : Spec.AvrSegment.run p (mv :: l) s = Spec.AvrSegment.run p l s1 := by
  show (match Spec.AvrSegment.step p s mv with | .ok s => Spec.AvrSegment.run p l s | .ub => .ub | .impossible => .impossible) = _
  rw [e]

/-- No frame is delivered while one is unheard. -/
theorem room {s : Segment ι} {u : ι → Nat} (hs : Sane p s u) {mv : Move ι} (hu : ∀ i, mv = .deliver i → u i = 0) {cmv : Spec.CanSegment.Move ι} (hf : Fits mv cmv) :
    ∀ i, cmv = .deliver i → unheard ((seg s).node i) = [] := by
  intro i h
  refine (hs.turn i).resolve_right fun h' => ?_
  rw [hu i (hf.deliver i h)] at h'
  have := ahead_pos (s.node i).pc
  omega

/-- The step in which an example hears an event is a call of the framework with this event. -/
theorem called {s s' : Segment ι} {u : ι → Nat} (hs : Sane p s u) {j : ι} (e : Spec.AvrSegment.step p s (.own j .step) = .ok s') (hl : (s'.node j).fw.life = (s.node j).fw.life) {m : Msg}
    (hh : (s'.node j).heard = (s.node j).heard ++ [m]) : (s'.node j).fw = Avr.call (p.surr j) (.process (some m)) (s.node j).fw := by
  obtain ⟨y, hy, rfl⟩ := act_after (p := p) (s := s) (rest := s.inbox j) e
  simp only [after, if_pos] at hl hh ⊢
  have no : ∀ {l : List Msg}, l ≠ l ++ [m] := fun h => by simpa using congrArg List.length h
  rcases move_does (a := p.around j) (hs.inv j) .step trivial with e | ⟨y', e, hd, -⟩
  · rw [e] at hy; cases hy
  · rw [e] at hy
    cases hy
    cases hd with
    | cycle m' x hpc hm hr hc =>
      have h := List.append_cancel_left hh
      cases m' with
      | none => cases h
      | some m' => cases h; rfl
    | reset m' ctl hpc hm hr => exact absurd hl (Nat.succ_ne_self _)
    | segInit x hpc hp hl hc => exact absurd hh no
    | quiet hpc hp => exact absurd hh no
    | remember hpc => exact absurd hh no
    | due x sw hpc hz hsw hc => exact absurd hh no
    | notDue hpc hz => exact absurd hh no

/-- An example hears the frame `b` in a history `l`: example `j`, in the step of its main loop between `s1` and `s2`. -/
structure Comes (p : Parts ι) (l : List (Move ι)) (s s' : Segment ι) (j : ι) (b : BusFrame) (l1 l2 : List (Move ι)) (s1 s2 : Segment ι) (m : Msg) : Prop where
  split : l = l1 ++ .own j .step :: l2
  before : Spec.AvrSegment.run p l1 s = .ok s1
  step : Spec.AvrSegment.step p s1 (.own j .step) = .ok s2
  behind : Spec.AvrSegment.run p l2 s2 = .ok s'
  fit : Fitting (seg s2)
  sane1 : ∃ u, Sane p s1 u
  sane : ∃ u, Sane p s2 u ∧ InTurn u l2
  carries : Carries b m
  heard : (s2.node j).heard = (s1.node j).heard ++ [m]
  acted : ∃ t, Acted (parts p) (seg s1) (seg s2) j .cycle t
  call : (s2.node j).fw = Avr.call (p.surr j) (.process (some m)) (s1.node j).fw
  lives : ∀ k, (s.node k).fw.life ≤ (s1.node k).fw.life ∧ (s1.node k).fw.life = (s2.node k).fw.life ∧ (s2.node k).fw.life ≤ (s'.node k).fw.life

/-- A frame which is on the way to an example arrives. -/
theorem comes (htx : ∀ i n k, ((p.surr i).env n).txOk k = true) {i j : ι} (hij : i ≠ j) {b : BusFrame} : ∀ (l : List (Move ι)) {s s' : Segment ι} {u : ι → Nat}, Sane p s u → Fitting (seg s) →
    (∀ mv ∈ l, Spec.AvrSegment.Ok mv) → InTurn u l → (s'.node i).fw.life = (s.node i).fw.life → (s'.node j).fw.life = (s.node j).fw.life → OnWay (seg s) i j b → ¬OnWay (seg s') i j b →
    Spec.AvrSegment.run p l s = .ok s' → ∃ l1 l2 s1 s2 m, Comes p l s s' j b l1 l2 s1 s2 m
  | [], s, s', u, _, _, _, _, _, _, h, hn, e => by cases e; exact absurd h hn
  | mv :: l, s, s', u, hs, hf, hl, ht, hli, hlj, h, hn, e => by
    have hm := hl mv (List.mem_cons_self ..)
    have hl' := fun mv h => hl mv (List.mem_cons_of_mem _ h)
    unfold Spec.AvrSegment.run at e
    cases hx : Spec.AvrSegment.step p s mv with
    | ub => rw [hx] at e; cases e
    | impossible => rw [hx] at e; cases e
    | ok s1 =>
      rw [hx] at e
      obtain ⟨h1, h2⟩ := sim_step htx hs hm ht.1 hx
      have hf1 : Fitting (seg s1) := by
        rcases h2 with h2 | ⟨cmv, h2, h3⟩
        · rw [h2]; exact hf
        · exact fitting_step htx hs.sound hf h3.ok h3.calls h2
      have one := life_own htx hs hm ht.1 hx
      have more := (sane_run htx l [] h1 hf1 hl' (by simpa using ht.2) e).2.1
      have next : OnWay (seg s1) i j b → ∃ l1 l2 s1 s2 m, Comes p (mv :: l) s s' j b l1 l2 s1 s2 m := by
        intro hw
        have i1 := one i
        have i2 := more i
        have j1 := one j
        have j2 := more j
        obtain ⟨l1, l2, s2, s3, m, ha⟩ := comes htx hij l h1 hf1 hl' ht.2 (by omega) (by omega) hw hn e
        exact ⟨mv :: l1, l2, s2, s3, m, by rw [ha.split]; rfl, (run_one hx).trans ha.before, ha.step, ha.behind, ha.fit, ha.sane1, ha.sane, ha.carries, ha.heard, ha.acted, ha.call,
          fun k => ⟨Nat.le_trans (one k) (ha.lives k).1, (ha.lives k).2⟩⟩
      rcases h2 with h2 | ⟨cmv, h2, h3⟩
      · exact next (by rw [h2]; exact h)
      · obtain ⟨-, hst⟩ := stepped (proper htx) hs.sound h3.ok (room hs ht.1 h3) h2
        cases hst with
        | none e => exact next (by rw [e]; exact h)
        | power k _ _ ho hk =>
          have i1 : (seg s1).life i = (seg s).life i := by
            have := one i
            have := more i
            show (s1.node i).fw.life = (s.node i).fw.life
            omega
          have j1 : (seg s1).life j = (seg s).life j := by
            have := one j
            have := more j
            show (s1.node j).fw.life = (s.node j).fw.life
            omega
          have hki : i ≠ k := by rintro rfl; omega
          have hkj : j ≠ k := by rintro rfl; omega
          refine next ?_
          unfold OnWay at h ⊢
          rw [(ho i hki).1, (ho j hkj).1, (ho j hkj).2]
          exact h
        | act k c t hmv hact hin =>
          rcases onWay_act hact hin hij h with h | ⟨rfl, rfl, hu⟩
          · exact next h
          · obtain ⟨m, c1, c2, -, ⟨-, c3⟩ | ⟨m', b', rfl, c4, c5⟩⟩ := hact.effect
            · rw [hu] at c3; cases c3
            · rw [hu] at c4
              cases c4
              cases h3.cycle _ (hmv rfl)
              exact ⟨[], l, s, s1, m', rfl, rfl, hx, e, hf1, ⟨u, hs⟩, ⟨_, h1, ht.2⟩, c5, c2, ⟨t, hact⟩, called hs hx (congrFun hact.life _) c2, fun k => ⟨Nat.le_refl _, (congrFun hact.life k).symm, more k⟩⟩

omit [DecidableEq ι] in
theorem turn_front [DecidableEq ι] : ∀ (l : List (Move ι)) {l' : List (Move ι)} {u : ι → Nat}, InTurn u (l ++ l') → InTurn u l
  | [], _, _, _ => trivial
  | _ :: l, _, _, h => ⟨h.1, turn_front l h.2⟩

/-- What an example has heard stays, as long as it runs. -/
theorem heard_kept (htx : ∀ i n k, ((p.surr i).env n).txOk k = true) {j : ι} : ∀ (l : List (Move ι)) {s s' : Segment ι} {u : ι → Nat}, Sane p s u → Fitting (seg s) →
    (∀ mv ∈ l, Spec.AvrSegment.Ok mv) → InTurn u l → (s'.node j).fw.life = (s.node j).fw.life → Spec.AvrSegment.run p l s = .ok s' → ∃ t, (s'.node j).heard = (s.node j).heard ++ t
  | [], s, s', u, _, _, _, _, _, e => by cases e; exact ⟨[], by simp⟩
  | mv :: l, s, s', u, hs, hf, hl, ht, hlj, e => by
    have hm := hl mv (List.mem_cons_self ..)
    have hl' := fun mv h => hl mv (List.mem_cons_of_mem _ h)
    unfold Spec.AvrSegment.run at e
    cases hx : Spec.AvrSegment.step p s mv with
    | ub => rw [hx] at e; cases e
    | impossible => rw [hx] at e; cases e
    | ok s1 =>
      rw [hx] at e
      obtain ⟨h1, h2⟩ := sim_step htx hs hm ht.1 hx
      have hf1 : Fitting (seg s1) := by
        rcases h2 with h2 | ⟨cmv, h2, h3⟩
        · rw [h2]; exact hf
        · exact fitting_step htx hs.sound hf h3.ok h3.calls h2
      have j1 := life_own htx hs hm ht.1 hx j
      have j2 := (sane_run htx l [] h1 hf1 hl' (by simpa using ht.2) e).2.1 j
      obtain ⟨t', h4⟩ := heard_kept htx (j := j) l h1 hf1 hl' ht.2 (by omega) e
      have h5 : ∃ t, (s1.node j).heard = (s.node j).heard ++ t := by
        rcases h2 with h2 | ⟨cmv, h2, h3⟩
        · exact ⟨[], by rw [List.append_nil]; exact congrArg (fun x => (Spec.CanSegment.Segment.node x j).heard) h2⟩
        · exact heard_step (proper htx) hs.sound h3.ok (j := j) (show (s1.node j).fw.life = (s.node j).fw.life by omega) h2
      obtain ⟨t, h5⟩ := h5
      exact ⟨t ++ t', by rw [h4, h5, List.append_assoc]⟩

/-- C129: AVR examples on a CAN bus, each of them as a whole, whatever happens and whenever, if the main loop of each example runs once between two frames of others.  Example `a` sends an event, and
neither `a` nor `b` restart until nothing is on the way from and to both.  Then the framework of example `b` has processed this event in one of the steps of its main loop since then.  And if `b` was active
at this time, and the event is not one of the protocol, `b` has executed in this step the rows of its decision matrix which fire for the event, in their order, and sent the events which belong to them; its LED
is as the last of them says; and `a` has heard all events which `b` sent in this step. -/
theorem C129_acts (htx : ∀ i n k, ((p.surr i).env n).txOk k = true) (ps : ι → Nat → U8) (ctl : ι → CanDrv.State) (pre : List (Move ι)) (mv : Move ι) (l : List (Move ι))
    (hl : ∀ mv' ∈ pre ++ mv :: l, Spec.AvrSegment.Ok mv') (ht : InTurn (fun _ => 0) (pre ++ mv :: l)) {s0 s1 s : Segment ι} (e0 : Spec.AvrSegment.run p pre (start p ps ctl) = .ok s0)
    (e1 : Spec.AvrSegment.step p s0 mv = .ok s1) (e : Spec.AvrSegment.run p l s1 = .ok s) {a b : ι} (hab : a ≠ b) (hla : (s.node a).fw.life = (s0.node a).fw.life)
    (hlb : (s.node b).fw.life = (s0.node b).fw.life) (ha : Silent s a) (hb : Silent s b) {m : Msg} (hm : m ∈ taken ((s1.node a).fw.w.out.drop (s0.node a).fw.w.out.length)) :
    ∃ l1 l2 s2 s3, l = l1 ++ .own b .step :: l2 ∧ Spec.AvrSegment.run p l1 s1 = .ok s2 ∧ Spec.AvrSegment.step p s2 (.own b .step) = .ok s3 ∧ Spec.AvrSegment.run p l2 s3 = .ok s ∧
      ∃ m' t, SameEvent m m' ∧ (s3.node b).heard = (s2.node b).heard ++ [m'] ∧ (s3.node b).fw = Avr.call (p.surr b) (.process (some m')) (s2.node b).fw ∧
        (s3.node b).fw.w.out = (s2.node b).fw.w.out ++ t ∧
        (∀ f ∈ Spec.frames t, ∃ g ∈ (s.node a).heard.drop (s3.node a).heard.length, SameEvent f g) ∧
        ((s2.node b).fw.w.v.st = .active → m.cls ≠ 0 →
          let rows := Spec.Dm.calls (DmProps.matrix (cfg (p.surr b).sz) (s2.node b).fw.w.ps) m' m'.data.toList
          (∃ react post, t = .event m' :: react ++ post ∧ Reacts (s3.node b).fw.w.v.nick rows react ∧ Spec.Dm.actions post = []) ∧
          (s3.node b).fw.led.lit = Spec.Avr.ledThen (s2.node b).fw.led.lit rows) := by
  have hl' : ∀ mv' ∈ mv :: l, Spec.AvrSegment.Ok mv' := fun mv' h => hl mv' (List.mem_append_right _ h)
  have hll : ∀ mv' ∈ l, Spec.AvrSegment.Ok mv' := fun mv' h => hl' mv' (List.mem_cons_of_mem _ h)
  obtain ⟨hf0, -, u, hs0, ht0⟩ := sane_run htx pre (mv :: l) (sane_start htx ps ctl) (fitting_start ps ctl) (fun mv h => hl mv (List.mem_append_left _ h)) ht e0
  obtain ⟨hs1, h2⟩ := sim_step htx hs0 (hl' mv (List.mem_cons_self ..)) ht0.1 e1
  have hf1 : Fitting (seg s1) := by
    rcases h2 with h2 | ⟨cmv, h2, h3⟩
    · rw [h2]; exact hf0
    · exact fitting_step htx hs0.sound hf0 h3.ok h3.calls h2
  have lives := life_own htx hs0 (hl' mv (List.mem_cons_self ..)) ht0.1 e1
  obtain ⟨-, lives', u', hsz, -⟩ := sane_run htx l [] hs1 hf1 hll (by simpa using ht0.2) e
  have a1 := lives a
  have a2 := lives' a
  have b1 := lives b
  have b2 := lives' b
  have hw : OnWay (seg s1) a b (wireOf m) := by
    rcases h2 with h2 | ⟨cmv, h2, h3⟩
    · have e3 : (s1.node a).fw.w = (s0.node a).fw.w := congrArg (fun x => (Spec.CanSegment.Segment.node x a).w) h2
      rw [e3, List.drop_eq_nil_of_le (Nat.le_refl _)] at hm
      cases hm
    · exact sent_way (stepped (proper htx) hs0.sound h3.ok (room hs0 ht0.1 h3) h2).2 hab (show (s1.node a).fw.life = (s0.node a).fw.life by omega) hm
  have tx_of : ∀ {t : List Out} {m : Msg}, m ∈ taken t → .tx m true ∈ t := by
    intro t m hm
    obtain ⟨o, ho, e⟩ := List.mem_filterMap.1 hm
    cases o with
    | tx m' r => cases r <;> simp at e; subst e; exact ho
    | _ => simp at e
  have hout : m ∈ taken (s1.node a).fw.w.out := List.mem_filterMap.2 ⟨_, List.mem_of_mem_drop (tx_of hm), rfl⟩
  have h8 : m.size.toNat ≤ 8 := (hs1.sound.fine a).size m hout
  have hfm := hf1 a m true (tx_of hout)
  obtain ⟨l1, l2, s2, s3, m', hc⟩ := comes htx hab l hs1 hf1 hll ht0.2 (by omega) (by omega) hw (silent_none (s := seg s) hsz.sound ha hb) e
  obtain ⟨u1, hsa1⟩ := hc.sane1
  obtain ⟨u2, hsa2, ht2⟩ := hc.sane
  have hl2 : ∀ mv' ∈ l2, Spec.AvrSegment.Ok mv' := fun mv' h => hll mv' (by rw [hc.split]; exact List.mem_append_right _ (List.mem_cons_of_mem _ h))
  have same := same_of hfm.1 hfm.2 hc.carries
  have h8' : m'.size.toNat ≤ 8 := by rw [same.size]; exact h8
  have hop : (Op.process (some m')).Ok := h8'
  obtain ⟨L, -, hst⟩ := stepOpC_steps (AvrProps.cb_ok _ : CbOk ((p.surr b).cb (s2.node b).fw.life)) hop (hsa1.sound.fine b).good.lb
  obtain ⟨t, ht1, htk⟩ := steps_taken (c := (p.surr b).ctx (s2.node b).fw.life) rfl (htx b _) hst
  have hw3 : (s3.node b).fw.w = (stepOpC ((p.surr b).ctx (s2.node b).fw.life) ((p.surr b).cb (s2.node b).fw.life) (.process (some m')) (s2.node b).fw.w).2 := by rw [hc.call]; rfl
  have ho3 : (s3.node b).fw.w.out = (s2.node b).fw.w.out ++ t := by rw [hw3]; exact ht1
  refine ⟨l1, l2, s2, s3, hc.split, hc.before, hc.step, hc.behind, m', t, same, hc.heard, hc.call, ho3, fun f hf => ?_, fun hact hcls => ?_⟩
  · obtain ⟨o, ho, e⟩ := List.mem_filterMap.1 hf
    have hin : .tx f true ∈ t := by
      cases o with
      | tx m1 r => cases e; have := htk _ _ ho; subst this; exact ho
      | _ => cases e
    have hff := hc.fit b f true (show _ ∈ (s3.node b).fw.w.out by rw [ho3]; exact List.mem_append_right _ hin)
    obtain ⟨t', hac⟩ := hc.acted
    have et : t' = t := by
      have h : (s3.node b).fw.w.out = (s2.node b).fw.w.out ++ t' := hac.out
      rw [ho3] at h
      exact (List.append_cancel_left h).symm
    subst et
    have hwb : OnWay (seg s3) b a (wireOf f) := hac.sends f (List.mem_filterMap.2 ⟨_, hin, rfl⟩) a hab
    have la := hc.lives a
    have lb := hc.lives b
    obtain ⟨l3, l4, s4, s5, g, hd⟩ := comes htx (Ne.symm hab) l2 hsa2 hc.fit hl2 ht2 (by omega) (by omega) hwb (silent_none (s := seg s) hsz.sound hb ha) hc.behind
    have la2 := hd.lives a
    obtain ⟨u5, hs5, ht5⟩ := hd.sane
    have ht3 : InTurn u2 (l3 ++ .own a .step :: l4) := by rw [← hd.split]; exact ht2
    obtain ⟨v, hv⟩ := heard_kept htx (j := a) l4 hs5 hd.fit (fun mv' h => hl2 mv' (by rw [hd.split]; exact List.mem_append_right _ (List.mem_cons_of_mem _ h))) ht5 (by omega) hd.behind
    obtain ⟨w, hw⟩ := heard_kept htx (j := a) l3 hsa2 hc.fit (fun mv' h => hl2 mv' (by rw [hd.split]; exact List.mem_append_left _ h)) (turn_front l3 ht3) (by omega) hd.before
    refine ⟨g, ?_, same_of hff.1 hff.2 hd.carries⟩
    rw [hv, hd.heard, hw, List.append_assoc, List.append_assoc, List.drop_left]
    simp
  · have hcls' : m'.cls ≠ 0 := by rw [same.cls]; exact hcls
    obtain ⟨pre', react, post, q1, q2, q3, q4, q5, -⟩ := AvrProps.C88_actions (p.surr b) (s2.node b).fw m' hact h8'
    rw [q3 hcls'] at q1 q2
    rw [← hc.call] at q1 q2
    have et : t = .event m' :: react ++ post := by
      rw [ho3] at q1
      exact List.append_cancel_left q1
    refine ⟨⟨react, post, et, q2, q5⟩, ?_⟩
    have ho : (Avr.call (p.surr b) (.process (some m')) (s2.node b).fw).w.out = (s2.node b).fw.w.out ++ t := by rw [← hc.call]; exact ho3
    rw [hc.call, AvrProps.led_of ho, et, List.cons_append]
    have : Spec.Dm.actions (.event m' :: (react ++ post)) = Spec.Dm.actions (react ++ post) := rfl
    rw [this, DmProps.actions_append, q5, List.append_nil, (AvrProps.reacts_only q2).1]
    rfl

end

/-! ### Two examples -/

/-- The first example has the nickname 5 and switches its LED on at events of class 30 and type 5.  The second one has the nickname 6 and switches its LED off when another LED is switched on. -/
def exRows : Bool → Nat → U8 := fun i x => if i then AvrProps.exMem x else ([6, 0, 0x60, 0, 0, 0, 0, 0, 7, 8, 0, 0x80, 0xFF, 20, 0xFF, 3, 2, 0] : List U8).getD x 0

/-- Both examples announce themselves, and then something else sends an event of class 30 and type 5. -/
def exCause : List (Move Bool) := exNews ++ [.own true (.rx ⟨true, false, 30 * 2 ^ 16 + 5 * 2 ^ 8 + 9, 0, []⟩)]

/-- The event of the first example reaches the second one, and that of the second one the first one. -/
def exEcho : List (Move Bool) := List.replicate 3 (.own true .step) ++ exSend true ++ exLoop false ++ exSend false ++ exLoop true

/-- The events which an example has sent and heard between two states: class, type and origin. -/
def exSaid (i : Bool) (s s' : Segment Bool) : List (U16 × U8 × U8) × List (U16 × U8 × U8) :=
  ((taken ((s'.node i).fw.w.out.drop (s.node i).fw.w.out.length)).map fun m => (m.cls, m.typ, m.oAddr), ((s'.node i).heard.drop (s.node i).heard.length).map fun m => (m.cls, m.typ, m.oAddr))

/-- The hypotheses of `C129_acts` are met: the first example sends On because of the event, and the second one Off because of that. -/
example : (∀ mv ∈ exCause ++ .own true .step :: exEcho, Spec.AvrSegment.Ok mv) ∧ InTurn (fun _ => 0) (exCause ++ .own true .step :: exEcho) ∧
    (match Spec.AvrSegment.run exParts exCause (start exParts exRows fun _ => CanSegment.exCtl) with
    | .ok s0 => match Spec.AvrSegment.step exParts s0 (.own true .step) with
      | .ok s1 => match Spec.AvrSegment.run exParts exEcho s1 with
        | .ok s =>
          decide (exLook (.ok s) = some [(true, 5, true), (true, 6, true)]) &&
          decide ((s.node true).fw.life = (s0.node true).fw.life ∧ (s.node false).fw.life = (s0.node false).fw.life) &&
          decide (exSaid true s0 s1 = ([(20, 3, 5)], [(30, 5, 9)])) && decide (exSaid false s1 s = ([(20, 4, 6)], [(20, 3, 5)])) && decide (exSaid true s1 s = ([], [(20, 4, 6)])) &&
          ((s.node true).fw.led.lit && !(s.node false).fw.led.lit)
        | _ => false
      | _ => false
    | _ => false) = true := by
  refine ⟨fun mv h => ?_, exTurn_ok _ _ (by decide +kernel), by decide +kernel⟩
  have ok : ∀ l : List (Move Bool), l.all exAlone = true → ∀ mv ∈ l, Spec.AvrSegment.Ok mv := fun l h mv hm => (exAlone_ok h mv hm).1
  rcases List.mem_append.1 h with h | h
  · rcases List.mem_append.1 h with h | h
    · exact ok _ (by decide +kernel) mv h
    · cases List.mem_singleton.1 h
      exact ⟨by decide, by decide, rfl⟩
  · exact ok _ (by decide +kernel) mv h

end Vscp.AvrSegment
