/-
Property theorems: AVR examples with the same nickname on a CAN bus (C123).
-/
import Verif.Spec.AvrSegment
import Verif.Spec.Answers
import Verif.Props.AvrSys
import Verif.Props.CanSegment

namespace Vscp.AvrSegment
open Vscp.Driver Vscp.Avr Vscp.Avr.Sys Vscp.Spec.AvrSegment Vscp.Spec.CanDrv Vscp.CanDrvProps
open Vscp.CanSegment (Proper Sound Modesty unheard moved)
open Vscp.Safety (allOk)
open Vscp.Driver.CanNode (Around Res)
open Vscp.Driver.CanDrv (BusFrame)

variable {ι : Type} [DecidableEq ι] {p : Parts ι}

/-- The example which is told to restart sends nothing in this move. -/
theorem reset_sends {s : Surr} {a : Nat → Around} {y y1 : State} (hi : Inv s y) (e : act s a .cycle y = .ok y1) (hr : .resetRequest ∈ y1.fw.w.out.drop y.fw.w.out.length) :
    y1.x.2.wire = y.x.2.wire := by
  rcases act_cycle (a := a) hi with e' | ⟨m, x, hm, e', -, hc⟩
  · rw [e'] at e; cases e
  · rw [e'] at e
    cases e
    obtain ⟨-, h2, -⟩ := AvrProps.reset_last s m y.fw (ok_small hm) hr
    simp only [CanNode.move] at hc
    obtain ⟨⟨m', x'⟩, r1, -, -, r4, -⟩ := CanNode.readMessage_inv ((a y.fw.life).rstack (Sys.node y).w.out.length) ((a y.fw.life).old (Sys.node y).w.out.length) (Sys.node y).x hi.good.sends.inv
    rw [r1] at hc
    dsimp only at hc
    unfold CanNode.callFw at hc
    dsimp only at hc
    split at hc
    · rename_i x1 hx1
      injection hc with hc
      have hw : (stepOpC (s.ctx y.fw.life) (s.cb y.fw.life) (.process m') (Sys.node y).w).2 = (Avr.call s (.process m) y.fw).w := congrArg CanNode.Node.w hc
      have hx : x1 = x := congrArg CanNode.Node.x hc
      rw [hw, h2, show (Sys.node y).w.out = y.fw.w.out from rfl, List.drop_left] at hx1
      cases hx1
      show x.2.wire = y.x.2.wire
      rw [← hx]
      exact r4
    · cases hc
    · cases hc

/-- The nodes on the bus. -/
def parts (p : Parts ι) : Spec.CanSegment.Parts ι := ⟨fun i => (p.surr i).ctx, fun i => (p.surr i).cb, p.around⟩

def seg (s : Segment ι) : Spec.CanSegment.Segment ι := ⟨fun i => (s.node i).fw.life, fun i => Sys.node (s.node i), s.inbox⟩

/-- The segment behind a move of example `i`. -/
def after (s : Segment ι) (i : ι) (y : State) (rest : List BusFrame) : Segment ι where
  node := fun j => if j = i then y else s.node j
  inbox := fun j => if j = i then (if y.fw.life = (s.node i).fw.life then rest else []) else s.inbox j ++ sends (s.node i) y

theorem act_after {s s' : Segment ι} {i : ι} {mv : Sys.Move} {rest : List BusFrame} (e : Spec.AvrSegment.act p s i mv rest = .ok s') :
    ∃ y, Sys.move (p.surr i) (p.around i) (s.node i) mv = .ok y ∧ s' = after s i y rest := by
  unfold Spec.AvrSegment.act at e
  split at e
  · rename_i y hy
    cases e
    exact ⟨y, hy, rfl⟩
  · cases e
  · cases e

theorem seg_ext {s s' : Spec.CanSegment.Segment ι} (h1 : ∀ i, s.life i = s'.life i) (h2 : ∀ i, s.node i = s'.node i) (h3 : ∀ i, s.inbox i = s'.inbox i) : s = s' := by
  obtain ⟨a, b, c⟩ := s
  obtain ⟨a', b', c'⟩ := s'
  obtain rfl : a = a' := funext h1
  obtain rfl : b = b' := funext h2
  obtain rfl : c = c' := funext h3
  rfl

/-- A move which the node on the bus does not notice. -/
theorem sim_none {s : Segment ι} {i : ι} {y : State} (h1 : y.fw.life = (s.node i).fw.life) (h2 : Sys.node y = Sys.node (s.node i)) : seg (after s i y (s.inbox i)) = seg s := by
  have h3 : y.x = (s.node i).x := congrArg CanNode.Node.x h2
  refine seg_ext (fun j => ?_) (fun j => ?_) fun j => ?_
  · by_cases hj : j = i
    · subst hj; simp only [seg, after, if_pos]; exact h1
    · simp only [seg, after, if_neg hj]
  · by_cases hj : j = i
    · subst hj; simp only [seg, after, if_pos]; exact h2
    · simp only [seg, after, if_neg hj]
  · by_cases hj : j = i
    · subst hj; simp only [seg, after, if_pos h1, if_pos]
    · simp only [seg, after, if_neg hj, sends, if_pos h1, h3, List.drop_length, List.append_nil]

/-- A move of the node on the bus. -/
theorem sim_act {s : Segment ι} {i : ι} {y : State} {mv : CanNode.Move} (h1 : y.fw.life = (s.node i).fw.life)
    (h : CanNode.move ((p.surr i).ctx (s.node i).fw.life) ((p.surr i).cb (s.node i).fw.life) (p.around i (s.node i).fw.life) (Sys.node (s.node i)) mv = .ok (Sys.node y))
    (rest : List BusFrame) : Spec.CanSegment.act (parts p) (seg s) i mv rest = .ok (seg (after s i y rest)) := by
  unfold Spec.CanSegment.act
  have h' : CanNode.move ((parts p).ctx i ((seg s).life i)) ((parts p).cb i ((seg s).life i)) ((parts p).around i ((seg s).life i)) ((seg s).node i) mv = .ok (Sys.node y) := h
  rw [h']
  dsimp only
  refine congrArg Res.ok (seg_ext (fun j => ?_) (fun j => ?_) fun j => ?_)
  · by_cases hj : j = i
    · subst hj; simp only [seg, after, if_pos]; exact h1.symm
    · simp only [seg, after, if_neg hj]
  · by_cases hj : j = i
    · subst hj; simp only [seg, after, if_pos]
    · simp only [seg, after, if_neg hj]
  · by_cases hj : j = i
    · subst hj; simp only [seg, after, if_pos h1, if_pos]
    · simp only [seg, after, if_neg hj, sends, if_pos h1]; rfl

/-- A restart. -/
theorem sim_power {s : Segment ι} {i : ι} (past : List Out) (ps : Nat → U8) (ctl : CanDrv.State) (rest : List BusFrame) :
    Spec.CanSegment.step (parts p) (seg s) (.power i allOk ps ctl) = .ok (seg (after s i (boot (p.surr i) past ((s.node i).fw.life + 1) ps ctl) rest)) := by
  have hl : (boot (p.surr i) past ((s.node i).fw.life + 1) ps ctl).fw.life = (s.node i).fw.life + 1 := rfl
  have hne : ¬(s.node i).fw.life + 1 = (s.node i).fw.life := by omega
  refine congrArg Res.ok (seg_ext (fun j => ?_) (fun j => ?_) fun j => ?_)
  · by_cases hj : j = i
    · subst hj; simp only [seg, after, if_pos]; rfl
    · simp only [seg, after, if_neg hj]
  · by_cases hj : j = i
    · subst hj; simp only [seg, after, if_pos]; rfl
    · simp only [seg, after, if_neg hj]
  · by_cases hj : j = i
    · subst hj; simp only [seg, after, if_pos, hl, if_neg hne]
    · simp only [seg, after, if_neg hj, sends, hl, if_neg hne, List.append_nil]

/-- The steps of the main loop until the framework has run. -/
def ahead : Pc → Nat
  | .process => 1
  | .check => 4
  | .remember => 3
  | .periodic => 2

/-- The segment in a history in which the main loop runs often enough. -/
structure Sane (p : Parts ι) (s : Segment ι) (u : ι → Nat) : Prop where
  inv : ∀ i, Inv (p.surr i) (s.node i)
  sound : Sound (parts p) (seg s)
  turn : ∀ i, unheard (Sys.node (s.node i)) = [] ∨ ahead (s.node i).pc ≤ u i

/-- The move of the nodes on the bus which belongs to a move of the examples. -/
structure Fits (mv : Move ι) (cmv : Spec.CanSegment.Move ι) : Prop where
  ok : Spec.CanSegment.Ok cmv
  modest : Modest mv → Spec.CanSegment.Modest cmv
  deliver : ∀ i, cmv = .deliver i → mv = .deliver i
  reserved : Reserved mv → Spec.CanSegment.Reserved cmv
  outside : ∀ i b, cmv = .own i (.rx b) → mv = .own i (.rx b)
  calls : ∀ i m, cmv ≠ .own i (.call (.sendEvent m))
  cycle : ∀ i, cmv = .own i .cycle → mv = .own i .step

omit [DecidableEq ι] in
theorem proper (htx : ∀ i n k, ((p.surr i).env n).txOk k = true) : Proper (parts p) :=
  ⟨fun i k => AvrProps.good _ _, fun i k => AvrProps.cb_ok _, fun _ _ => rfl, fun _ _ => rfl, fun i k n => htx i k n⟩

/-- What a move of an example is for the node on the bus, and what it does to the frames which the framework has not heard. -/
theorem sim_own (htx : ∀ i n k, ((p.surr i).env n).txOk k = true) {s : Segment ι} {u : ι → Nat} (hs : Sane p s u) {i : ι} {mv : Sys.Move} (hm : Spec.AvrSys.Ok mv)
    {y : State} (hd : Does (p.surr i) (p.around i) (s.node i) mv y) :
    ((y.fw.life = (s.node i).fw.life ∧ Sys.node y = Sys.node (s.node i)) ∨
      (y.fw.life = (s.node i).fw.life ∧ ∃ cmv, CanNode.move ((p.surr i).ctx (s.node i).fw.life) ((p.surr i).cb (s.node i).fw.life) (p.around i (s.node i).fw.life)
        (Sys.node (s.node i)) cmv = .ok (Sys.node y) ∧ Spec.CanNode.Ok cmv ∧ (∀ b, mv = .rx b → cmv = .rx b) ∧ ((∀ b, mv ≠ .rx b) → Spec.CanSegment.Modest (.own i cmv) ∧ Spec.CanSegment.Reserved (.own i cmv) ∧ (∀ b, cmv ≠ .rx b) ∧ (∀ m, cmv ≠ .call (.sendEvent m)) ∧ (cmv = .cycle → mv = .step))) ∨
      ∃ past ps ctl, y = boot (p.surr i) past ((s.node i).fw.life + 1) ps ctl) ∧
    (unheard (Sys.node y) = [] ∨ ahead y.pc ≤ next u (.own i mv) i) := by
  have hf := hs.sound.fine i
  have eff : ∀ {cmv : CanNode.Move} {n : CanNode.Node}, Spec.CanNode.Ok cmv →
      CanNode.move ((p.surr i).ctx (s.node i).fw.life) ((p.surr i).cb (s.node i).fw.life) (p.around i (s.node i).fw.life) (Sys.node (s.node i)) cmv = .ok n →
      CanSegment.Effect ((p.surr i).ctx (s.node i).fw.life) ((p.surr i).cb (s.node i).fw.life) (Sys.node (s.node i)) n cmv := fun hm e =>
    (moved (AvrProps.good _ _) (AvrProps.cb_ok _) _ hf hm e).2.2
  cases hd with
  | tick b => exact ⟨.inl ⟨rfl, rfl⟩, hs.turn i⟩
  | cycle m x hpc hm' hr hc =>
    refine ⟨.inr (.inl ⟨rfl, .cycle, hc, trivial, fun b h => (by cases h), fun _ => ⟨trivial, trivial, fun _ h => (by cases h), fun _ h => (by cases h), fun _ => rfl⟩⟩), .inl ?_⟩
    obtain ⟨-, -, -, h3, -⟩ := eff (cmv := .cycle) trivial hc
    exact h3
  | reset m ctl hpc hm' hr => exact ⟨.inr (.inr ⟨_, _, _, rfl⟩), .inl rfl⟩
  | segInit x hpc hp hl hc =>
    have ho : Spec.CanNode.Ok (.call .startNodeSegmentInit) := .inl trivial
    refine ⟨.inr (.inl ⟨rfl, _, hc, ho, fun b h => (by cases h), fun _ => ⟨trivial, trivial, fun _ h => (by cases h), fun _ h => (by cases h), fun h => (by cases h)⟩⟩), ?_⟩
    have := (eff ho hc).2.2.2
    rcases hs.turn i with h | h
    · exact .inl (this.trans h)
    · refine .inr ?_
      rw [hpc] at h
      simp only [ahead, next, if_pos] at h ⊢
      omega
  | quiet hpc hp =>
    refine ⟨.inl ⟨rfl, rfl⟩, (hs.turn i).imp_right fun h => ?_⟩
    rw [hpc] at h
    simp only [ahead, next, if_pos] at h ⊢
    omega
  | remember hpc =>
    refine ⟨.inl ⟨rfl, rfl⟩, (hs.turn i).imp_right fun h => ?_⟩
    rw [hpc] at h
    simp only [stepRemember, ahead, next, if_pos] at h ⊢
    omega
  | due x sw hpc hz hsw hc =>
    have ho : Spec.CanNode.Ok (.call (.tick 250)) := .inr ⟨_, rfl⟩
    refine ⟨.inr (.inl ⟨later_life _, _, hc, ho, fun b h => (by cases h), fun _ => ⟨trivial, trivial, fun _ h => (by cases h), fun _ h => (by cases h), fun h => (by cases h)⟩⟩), ?_⟩
    have := (eff ho hc).2.2.2
    rcases hs.turn i with h | h
    · exact .inl (this.trans h)
    · refine .inr ?_
      rw [hpc] at h
      simp only [ahead, next, if_pos] at h ⊢
      omega
  | notDue hpc hz =>
    refine ⟨.inl ⟨rfl, rfl⟩, (hs.turn i).imp_right fun h => ?_⟩
    rw [hpc] at h
    simp only [ahead, next, if_pos] at h ⊢
    omega
  | rx b x hc =>
    refine ⟨.inr (.inl ⟨rfl, _, hc, hm, fun b h => (by cases h; rfl), fun h => absurd rfl (h b)⟩), .inr ?_⟩
    simp only [next, if_pos]
    show ahead (s.node i).pc ≤ 4
    cases (s.node i).pc <;> decide
  | tx x hc =>
    refine ⟨.inr (.inl ⟨rfl, _, hc, trivial, fun b h => (by cases h), fun _ => ⟨trivial, trivial, fun _ h => (by cases h), fun _ h => (by cases h), fun h => (by cases h)⟩⟩), ?_⟩
    exact (hs.turn i).imp_left fun h => (eff (cmv := .tx) trivial hc).2.2.trans h
  | power => exact ⟨.inr (.inr ⟨_, _, _, rfl⟩), .inl rfl⟩

theorem next_other {u : ι → Nat} {i j : ι} (hj : j ≠ i) (mv : Sys.Move) : next u (.own i mv) j = u j := by
  cases mv <;> simp only [next, if_neg hj]

/-- A move of the examples is a move of the nodes on the bus, or none. -/
theorem sim_step (htx : ∀ i n k, ((p.surr i).env n).txOk k = true) {s s' : Segment ι} {u : ι → Nat} (hs : Sane p s u) {mv : Move ι} (hm : Spec.AvrSegment.Ok mv)
    (hu : ∀ i, mv = .deliver i → u i = 0) (e : Spec.AvrSegment.step p s mv = .ok s') :
    Sane p s' (next u mv) ∧ (seg s' = seg s ∨ ∃ cmv, Spec.CanSegment.step (parts p) (seg s) cmv = .ok (seg s') ∧ Fits mv cmv) := by
  have hp := proper htx
  have turn : ∀ {i : ι} {y : State} {rest : List BusFrame} (hy : unheard (Sys.node y) = [] ∨ ahead y.pc ≤ next u mv i) (ho : ∀ j, j ≠ i → next u mv j = u j) (j : ι),
      unheard (Sys.node ((after s i y rest).node j)) = [] ∨ ahead ((after s i y rest).node j).pc ≤ next u mv j := by
    intro i y rest hy ho j
    by_cases hj : j = i
    · subst hj; simp only [after, if_pos]; exact hy
    · simp only [after, if_neg hj]; rw [ho j hj]; exact hs.turn j
  have inv : ∀ {i : ι} {y : State} {rest : List BusFrame}, Inv (p.surr i) y → ∀ j, Inv (p.surr j) ((after s i y rest).node j) := by
    intro i y rest hy j
    by_cases hj : j = i
    · subst hj; simp only [after, if_pos]; exact hy
    · simp only [after, if_neg hj]; exact hs.inv j
  cases mv with
  | own i smv =>
    obtain ⟨y, hy, rfl⟩ := act_after (p := p) (s := s) (rest := s.inbox i) e
    obtain ⟨hd, hi⟩ : Does (p.surr i) (p.around i) (s.node i) smv y ∧ Inv (p.surr i) y := by
      rcases move_does (a := p.around i) (hs.inv i) smv hm with e' | ⟨y', e', h1, h2⟩
      · rw [e'] at hy; cases hy
      · rw [e'] at hy; cases hy; exact ⟨h1, h2⟩
    obtain ⟨hc, ht⟩ := sim_own htx hs hm hd
    have hturn := turn (rest := s.inbox i) ht fun j hj => next_other hj smv
    rcases hc with ⟨h1, h2⟩ | ⟨h1, cmv, h2, h3, h4, h5⟩ | ⟨past, ps, ctl, rfl⟩
    · have e0 := sim_none h1 h2
      exact ⟨⟨inv hi, by rw [e0]; exact hs.sound, hturn⟩, .inl e0⟩
    · have e0 := sim_act h1 h2 (s.inbox i)
      refine ⟨⟨inv hi, CanSegment.sound_step hp hs.sound (mv := .own i cmv) h3 e0, hturn⟩, .inr ⟨.own i cmv, e0, h3, fun hmo => ?_, fun j hj => (by cases hj), fun hmo => ?_, fun j b hj => ?_, fun j m hj => ?_, fun j hj => ?_⟩⟩
      · by_cases hb : ∃ b, smv = .rx b
        · obtain ⟨b, rfl⟩ := hb
          rw [h4 b rfl]
          exact hmo
        · exact (h5 fun b hb' => hb ⟨b, hb'⟩).1
      · by_cases hb : ∃ b, smv = .rx b
        · obtain ⟨b, rfl⟩ := hb
          rw [h4 b rfl]
          exact hmo
        · exact (h5 fun b hb' => hb ⟨b, hb'⟩).2.1
      · by_cases hb : ∃ b, smv = .rx b
        · obtain ⟨b', rfl⟩ := hb
          rw [h4 b' rfl] at hj
          cases hj
          rfl
        · cases hj
          exact absurd rfl ((h5 fun b hb' => hb ⟨b, hb'⟩).2.2.1 b)
      · by_cases hb : ∃ b, smv = .rx b
        · obtain ⟨b', rfl⟩ := hb
          rw [h4 b' rfl] at hj
          cases hj
        · cases hj
          exact absurd rfl ((h5 fun b hb' => hb ⟨b, hb'⟩).2.2.2.1 m)
      · by_cases hb : ∃ b, smv = .rx b
        · obtain ⟨b', rfl⟩ := hb
          rw [h4 b' rfl] at hj
          cases hj
        · cases hj
          rw [(h5 fun b hb' => hb ⟨b, hb'⟩).2.2.2.2 rfl]
    · have e0 := sim_power (p := p) (s := s) (i := i) past ps ctl (s.inbox i)
      exact ⟨⟨inv hi, CanSegment.sound_step hp hs.sound (mv := .power i allOk ps ctl) trivial e0, hturn⟩, .inr ⟨_, e0, trivial, fun _ => trivial, fun j hj => (by cases hj), fun _ => trivial, fun j b hj => (by cases hj), fun j m hj => (by cases hj), fun j hj => (by cases hj)⟩⟩
  | deliver i =>
    have four : ∀ q : Pc, ahead q ≤ next u (.deliver i) i := by
      intro q
      simp only [next, if_pos]
      cases q <;> decide
    have ho : ∀ j, j ≠ i → next u (.deliver i) j = u j := fun j hj => by simp only [next, if_neg hj]
    simp only [Spec.AvrSegment.step] at e
    cases hb : s.inbox i with
    | nil =>
      rw [hb] at e
      cases e
      refine ⟨⟨hs.inv, hs.sound, fun j => ?_⟩, .inl rfl⟩
      by_cases hj : j = i
      · subst hj; exact .inr (four _)
      · rw [ho j hj]; exact hs.turn j
    | cons b l =>
      rw [hb] at e
      dsimp only at e
      have hv : Valid b := hs.sound.inbox i b (by show b ∈ s.inbox i; rw [hb]; exact List.mem_cons_self ..)
      obtain ⟨y, hy, rfl⟩ := act_after e
      obtain ⟨hd, hi⟩ : Does (p.surr i) (p.around i) (s.node i) (.rx b) y ∧ Inv (p.surr i) y := by
        rcases move_does (a := p.around i) (hs.inv i) (.rx b) hv with e' | ⟨y', e', h1, h2⟩
        · rw [e'] at hy; cases hy
        · rw [e'] at hy; cases hy; exact ⟨h1, h2⟩
      cases hd with
      | rx b x hc =>
        have e0 : Spec.CanSegment.step (parts p) (seg s) (.deliver i) = .ok (seg (after s i { s.node i with x } l)) := by
          have := sim_act (p := p) (s := s) (i := i) (y := { s.node i with x }) (mv := .rx b) rfl hc l
          simp only [Spec.CanSegment.step]
          rw [show (seg s).inbox i = b :: l from hb]
          exact this
        exact ⟨⟨inv hi, CanSegment.sound_step hp hs.sound (mv := .deliver i) trivial e0, turn (.inr (four _)) ho⟩, .inr ⟨.deliver i, e0, trivial, fun _ => trivial, fun j hj => (by cases hj; rfl), fun _ => trivial, fun j b hj => (by cases hj), fun j m hj => (by cases hj), fun j hj => (by cases hj)⟩⟩

omit [DecidableEq ι] in
theorem ahead_pos (q : Pc) : 0 < ahead q := by cases q <;> decide

/-- A history of the examples is a history of the nodes on the bus. -/
theorem sim_run (htx : ∀ i n k, ((p.surr i).env n).txOk k = true) : ∀ (l l' : List (Move ι)) (s s' : Segment ι) (u : ι → Nat), Sane p s u → (∀ mv ∈ l, Spec.AvrSegment.Ok mv) →
    InTurn u (l ++ l') → Spec.AvrSegment.run p l s = .ok s' →
    (∃ u', Sane p s' u' ∧ InTurn u' l') ∧ ∃ lc, Spec.CanSegment.run (parts p) lc (seg s) = .ok (seg s') ∧ (∀ mv ∈ lc, Spec.CanSegment.Ok mv) ∧
      ((∀ mv ∈ l, Modest mv) → ∀ mv ∈ lc, Spec.CanSegment.Modest mv) ∧ Spec.CanSegment.Paced (parts p) (seg s) lc ∧ lc.length ≤ l.length ∧
      ∀ pre post s1, lc = pre ++ post → Spec.CanSegment.run (parts p) pre (seg s) = .ok s1 → ∃ pre' post' s1', l = pre' ++ post' ∧ Spec.AvrSegment.run p pre' s = .ok s1' ∧ s1 = seg s1'
  | [], l', s, s', u, hs, _, ht, e => by
    cases e
    refine ⟨⟨u, hs, ht⟩, [], rfl, fun _ h => (by cases h), fun _ _ h => (by cases h), fun pre i post s1 e => (by simp at e), Nat.le_refl _, fun pre post s1 e hr => ?_⟩
    obtain ⟨rfl, -⟩ := List.nil_eq_append_iff.1 e
    cases hr
    exact ⟨[], [], s, rfl, rfl, rfl⟩
  | mv :: l, l', s, s', u, hs, hl, ht, e => by
    unfold Spec.AvrSegment.run at e
    cases hst : Spec.AvrSegment.step p s mv with
    | ub => rw [hst] at e; cases e
    | impossible => rw [hst] at e; cases e
    | ok s1 =>
      rw [hst] at e
      obtain ⟨h1, h2⟩ := sim_step htx hs (hl mv (List.mem_cons_self ..)) ht.1 hst
      obtain ⟨hu, lc, c1, c2, c3, c4, c5, c6⟩ := sim_run htx l l' s1 s' _ h1 (fun mv h => hl mv (List.mem_cons_of_mem _ h)) ht.2 e
      refine ⟨hu, ?_⟩
      have one : ∀ {pre : List (Move ι)} {s2 : Segment ι}, Spec.AvrSegment.run p pre s1 = .ok s2 → Spec.AvrSegment.run p (mv :: pre) s = .ok s2 := by
        intro pre s2 h
        show (match Spec.AvrSegment.step p s mv with | .ok s => Spec.AvrSegment.run p pre s | .ub => .ub | .impossible => .impossible) = _
        rw [hst]
        exact h
      rcases h2 with h2 | ⟨cmv, h2, hf⟩
      · rw [h2] at c1 c4 c6
        refine ⟨lc, c1, c2, fun h => c3 fun mv h' => h mv (List.mem_cons_of_mem _ h'), c4, by simp only [List.length_cons]; omega, fun pre post s2 e hr => ?_⟩
        obtain ⟨pre', post', s3, e1, e2, e3⟩ := c6 pre post s2 e hr
        exact ⟨mv :: pre', post', s3, by rw [e1]; rfl, one e2, e3⟩
      · refine ⟨cmv :: lc, ?_, ?_, ?_, ?_, by simp only [List.length_cons]; omega, ?_⟩
        · show (match Spec.CanSegment.step (parts p) (seg s) cmv with | .ok s => Spec.CanSegment.run (parts p) lc s | .ub => .ub | .impossible => .impossible) = _
          rw [h2]
          exact c1
        · intro mv' h
          rcases List.mem_cons.1 h with rfl | h
          · exact hf.ok
          · exact c2 mv' h
        · intro hmo mv' h
          rcases List.mem_cons.1 h with rfl | h
          · exact hf.modest (hmo mv (List.mem_cons_self ..))
          · exact c3 (fun mv h' => hmo mv (List.mem_cons_of_mem _ h')) mv' h
        · intro pre i post s2 e hr
          cases pre with
          | nil =>
            simp only [List.nil_append, List.cons.injEq] at e
            cases hr
            have hd := hf.deliver i e.1
            refine CanSegment.heard_all (hs.sound.fine i).good ((hs.turn i).resolve_right fun h => ?_)
            rw [ht.1 i hd] at h
            have := ahead_pos (s.node i).pc
            omega
          | cons c pre =>
            simp only [List.cons_append, List.cons.injEq] at e
            obtain ⟨rfl, e⟩ := e
            unfold Spec.CanSegment.run at hr
            rw [h2] at hr
            exact c4 pre i post s2 e hr
        · intro pre post s2 e hr
          cases pre with
          | nil => cases hr; exact ⟨[], mv :: l, s, rfl, rfl, rfl⟩
          | cons c pre =>
            simp only [List.cons_append, List.cons.injEq] at e
            obtain ⟨rfl, e⟩ := e
            unfold Spec.CanSegment.run at hr
            rw [h2] at hr
            obtain ⟨pre', post', s3, e1, e2, e3⟩ := c6 pre post s2 e hr
            exact ⟨mv :: pre', post', s3, by rw [e1]; rfl, one e2, e3⟩

theorem sane_start (htx : ∀ i n k, ((p.surr i).env n).txOk k = true) (ps : ι → Nat → U8) (ctl : ι → CanDrv.State) : Sane p (start p ps ctl) fun _ => 0 where
  inv := fun i => boot_inv ..
  sound := CanSegment.sound_start (proper htx) (fun _ => allOk) ps ctl
  turn := fun i => .inl rfl

/-- C123: AVR examples on a CAN bus, each of them as a whole — main loop, timer interrupt, button, framework, application, transport adapter, CAN driver and controller — whatever happens and whenever:
buttons are pressed, power fails, examples restart, other participants send frames (but none which gives an example another nickname); and the main loop of each example runs once between two
frames of other examples.  Two active examples which have heard everything and have sent everything do not have the same nickname, except 0xFF. -/
theorem C123_no_duplicates (htx : ∀ i n k, ((p.surr i).env n).txOk k = true) (ps : ι → Nat → U8) (ctl : ι → CanDrv.State) (l : List (Move ι)) (hl : ∀ mv ∈ l, Spec.AvrSegment.Ok mv ∧ Modest mv)
    (ht : InTurn (fun _ => 0) l) {s : Segment ι} (e : Spec.AvrSegment.run p l (start p ps ctl) = .ok s) {i j : ι} (hij : i ≠ j) (hi : Silent s i) (hj : Silent s j) {q : U8}
    (hui : Spec.uses (s.node i).fw.w q) (huj : Spec.uses (s.node j).fw.w q) : q = 0xFF := by
  obtain ⟨-, lc, c1, c2, c3, c4, -, -⟩ := sim_run htx l [] _ _ _ (sane_start htx ps ctl) (fun mv h => (hl mv h).1) (by rw [List.append_nil]; exact ht) e
  have hmo := c3 fun mv h => (hl mv h).2
  exact CanSegment.C122_no_duplicates (proper htx) (fun _ => allOk) ps ctl lc c2 c4
    (CanSegment.C122_unassigned (proper htx) (fun i k => CanSegment.ordinary (p.surr i) k) (fun _ => allOk) ps ctl lc fun mv h => ⟨c2 mv h, hmo mv h⟩) c1 hij hi hj hui huj

theorem can_append (q : Spec.CanSegment.Parts ι) : ∀ (l l' : List (Spec.CanSegment.Move ι)) {s s1 s2 : Spec.CanSegment.Segment ι}, Spec.CanSegment.run q l s = .ok s1 →
    Spec.CanSegment.run q l' s1 = .ok s2 → Spec.CanSegment.run q (l ++ l') s = .ok s2
  | [], l', s, s1, s2, h, h' => by cases h; exact h'
  | mv :: l, l', s, s1, s2, h, h' => by
    simp only [List.cons_append, Spec.CanSegment.run] at h ⊢
    cases hst : Spec.CanSegment.step q s mv with
    | ok s3 => rw [hst] at h; exact can_append q l l' h h'
    | ub => rw [hst] at h; cases h
    | impossible => rw [hst] at h; cases h

theorem paced_append (q : Spec.CanSegment.Parts ι) : ∀ (l l' : List (Spec.CanSegment.Move ι)) {s s1 : Spec.CanSegment.Segment ι}, Spec.CanSegment.Paced q s l → Spec.CanSegment.run q l s = .ok s1 →
    Spec.CanSegment.Paced q s1 l' → Spec.CanSegment.Paced q s (l ++ l')
  | [], l', s, s1, _, h, h' => by cases h; exact h'
  | mv :: l, l', s, s1, hp, h, h' => by
    intro pre i post s2 e hr
    cases pre with
    | nil =>
      simp only [List.nil_append, List.cons_append, List.cons.injEq] at e
      cases hr
      exact hp [] i l s (by rw [e.1]; rfl) rfl
    | cons c pre =>
      simp only [List.cons_append, List.cons.injEq] at e
      obtain ⟨rfl, e⟩ := e
      simp only [Spec.CanSegment.run] at hr h
      cases hst : Spec.CanSegment.step q s mv with
      | ok s3 =>
        rw [hst] at hr h
        exact paced_append q l l' (CanSegment.paced_tail hst hp) h h' pre i post s2 e hr
      | ub => rw [hst] at h; cases h
      | impossible => rw [hst] at h; cases h

/-- C123: an AVR example which looks for a nickname does not take the one of an example which had it when the first probe for it was sent and still has it, if the two have heard and sent everything
when the example decides (compare C64, also about what is missing). -/
theorem C123_newcomer (htx : ∀ i n k, ((p.surr i).env n).txOk k = true) (ps : ι → Nat → U8) (ctl : ι → CanDrv.State) (pre l : List (Move ι)) (mv : Move ι)
    (hl : ∀ mv' ∈ pre ++ l ++ [mv], Spec.AvrSegment.Ok mv') (ht : InTurn (fun _ => 0) (pre ++ l ++ [mv])) {s0 s s' : Segment ι} (e0 : Spec.AvrSegment.run p pre (start p ps ctl) = .ok s0)
    (e : Spec.AvrSegment.run p l s0 = .ok s) (e' : Spec.AvrSegment.step p s mv = .ok s') {d a : ι} (hd : d ≠ a) {q : U8} (hw : ¬Spec.awaits (s0.node d).fw.w q)
    (hu : ∀ pre' post s1, l = pre' ++ post → Spec.AvrSegment.run p pre' s0 = .ok s1 → Spec.uses (s1.node a).fw.w q) (hsd : Silent s d) (hsa : Silent s a)
    (hi : (s.node d).fw.w.v.st = .init) : ¬Spec.uses (s'.node d).fw.w q := by
  rw [List.append_assoc] at hl ht
  obtain ⟨⟨u0, hs0, ht0⟩, lc0, a1, a2, -, a4, -, -⟩ := sim_run htx pre (l ++ [mv]) _ _ _ (sane_start htx ps ctl) (fun mv h => hl mv (List.mem_append_left _ h)) ht e0
  obtain ⟨⟨u1, hs1, ht1⟩, lc1, b1, b2, -, b4, -, b6⟩ := sim_run htx l [mv] _ _ _ hs0 (fun mv h => hl mv (List.mem_append_right _ (List.mem_append_left _ h))) ht0 e
  have e1 : Spec.AvrSegment.run p [mv] s = .ok s' := by simp only [Spec.AvrSegment.run]; rw [e']
  obtain ⟨-, lc2, c1, c2, -, c4, c5, -⟩ := sim_run htx [mv] [] _ _ _ hs1 (fun mv h => hl mv (List.mem_append_right _ (List.mem_append_right _ h))) (by simpa using ht1) e1
  cases lc2 with
  | nil =>
    intro h
    have e2 : seg s = seg s' := by simpa [Spec.CanSegment.run] using c1
    have e3 : (s.node d).fw.w = (s'.node d).fw.w := congrArg (fun x => ((Spec.CanSegment.Segment.node x) d).w) e2
    rw [← e3] at h
    have := h.1
    rw [hi] at this
    cases this
  | cons cmv lc2 =>
    obtain rfl : lc2 = [] := by cases lc2 <;> simp at c5 ⊢
    have hst : Spec.CanSegment.step (parts p) (seg s) cmv = .ok (seg s') := by
      simp only [Spec.CanSegment.run] at c1
      cases hx : Spec.CanSegment.step (parts p) (seg s) cmv with
      | ok s3 => rw [hx] at c1; exact c1
      | ub => rw [hx] at c1; cases c1
      | impossible => rw [hx] at c1; cases c1
    refine CanSegment.C122_newcomer (proper htx) (fun _ => allOk) ps ctl lc0 lc1 cmv ?_ ?_ a1 b1 hst hd hw ?_ hsd hsa hi
    · intro mv' h
      rcases List.mem_append.1 h with h | h
      · rcases List.mem_append.1 h with h | h
        · exact a2 mv' h
        · exact b2 mv' h
      · exact c2 mv' h
    · exact paced_append _ _ _ (paced_append _ _ _ a4 a1 b4) (can_append _ _ _ a1 b1) c4
    · intro pre' post s1 h1 h2
      obtain ⟨pre2, post2, s2, h3, h4, rfl⟩ := b6 pre' post s1 h1 h2
      exact hu pre2 post2 s2 h3 h4

/-! ### Two examples -/

def exParts : Parts Bool := ⟨fun _ => AvrProps.exSurr, fun _ _ => CanNode.exAround⟩

theorem ex_tx (i : Bool) (n : Nat) (k : Nat) : ((exParts.surr i).env n).txOk k = true := rfl

/-- Two examples with these nicknames are switched on. -/
def exStart (a b : U8) : Segment Bool := start exParts (CanSegment.exMems a b) fun _ => CanSegment.exCtl

/-- The main loop runs once. -/
def exLoop (i : Bool) : List (Move Bool) := List.replicate 4 (.own i .step)

/-- The controller sends a frame, and the other one sees it. -/
def exSend (i : Bool) : List (Move Bool) := [.own i .tx, .deliver !i]

/-- Quarters of a second pass for the second example. -/
def exWait (n : Nat) : List (Move Bool) := (List.replicate n (List.replicate 250 (.own false (.tick false)) ++ exLoop false)).flatten

/-- What the examples show (see `CanSegment.exLook`). -/
def exLook (r : Res (Segment Bool)) : Option (List (Bool × U8 × Bool)) :=
  match r with
  | .ok s => some ([true, false].map fun i => (decide ((s.node i).fw.w.v.st = .active), (s.node i).fw.w.v.nick,
      (s.inbox i).isEmpty && (s.node i).x.2.stored.length == (s.node i).heard.length && (s.node i).x.2.wire.length == (Spec.CanNode.taken (s.node i).fw.w.out).length))
  | _ => none

/-- Nothing else sends. -/
def exAlone : Move Bool → Bool
  | .own _ (.rx _) => false
  | _ => true

theorem exAlone_ok {l : List (Move Bool)} (h : l.all exAlone = true) : ∀ mv ∈ l, Spec.AvrSegment.Ok mv ∧ Modest mv := by
  intro mv hm
  have := List.all_eq_true.1 h mv hm
  rcases mv with ⟨i, mv⟩ | i
  · cases mv <;> first | exact ⟨trivial, trivial⟩ | cases this
  · exact ⟨trivial, trivial⟩

def exTurn : (Bool → Nat) → List (Move Bool) → Bool
  | _, [] => true
  | u, mv :: l => (match mv with | .deliver i => u i == 0 | _ => true) && exTurn (next u mv) l

theorem exTurn_ok : ∀ (l : List (Move Bool)) (u : Bool → Nat), exTurn u l = true → InTurn u l
  | [], _, _ => trivial
  | mv :: l, u, h => by
    unfold exTurn at h
    rw [Bool.and_eq_true] at h
    refine ⟨?_, exTurn_ok l _ h.2⟩
    rintro i rfl
    simpa using h.1

/-- The first example keeps the nickname 1. -/
def exKeeps : List (Move Bool) → Segment Bool → Bool
  | [], s => decide ((s.node true).fw.w.v.st = .active ∧ (s.node true).fw.w.v.nick = 1)
  | mv :: l, s => decide ((s.node true).fw.w.v.st = .active ∧ (s.node true).fw.w.v.nick = 1) && (match Spec.AvrSegment.step exParts s mv with | .ok s' => exKeeps l s' | _ => true)

/-- Two examples with the nickname 5 get active, the second one after a loss of power.  It announces itself, the first one answers, and the second one gives up the nickname. -/
def exBoth : List (Move Bool) := exLoop true ++ exSend true ++ [.own false .power] ++ exLoop false

def exLeft : List (Move Bool) := exBoth ++ exSend false ++ exLoop true ++ exSend true ++ exLoop false

/-- Both announce themselves. -/
def exNews : List (Move Bool) := exLoop true ++ exSend true ++ exLoop false ++ exSend false ++ exLoop true

/-- The hypotheses of `C123_no_duplicates` but the equality of the nicknames are met by two examples with the nicknames 5 and 6.  If both have the nickname 5, both are active first, and one of them
gives up. -/
example : (∀ mv ∈ exNews ++ exLeft, Spec.AvrSegment.Ok mv ∧ Modest mv) ∧ InTurn (fun _ => 0) exNews ∧ InTurn (fun _ => 0) exLeft ∧
    exLook (Spec.AvrSegment.run exParts exNews (exStart 5 6)) = some [(true, 5, true), (true, 6, true)] ∧
    exLook (Spec.AvrSegment.run exParts exBoth (exStart 5 5)) = some [(true, 5, true), (true, 5, false)] ∧
    exLook (Spec.AvrSegment.run exParts exLeft (exStart 5 5)) = some [(true, 5, true), (false, 0xFF, true)] :=
  ⟨exAlone_ok (by decide +kernel), exTurn_ok _ _ (by decide +kernel), exTurn_ok _ _ (by decide +kernel), by decide +kernel, by decide +kernel, by decide +kernel⟩

/-- An example with the nickname 1 gets active.  The other one has none and finds no segment controller. -/
def exFirst : List (Move Bool) := exLoop true ++ exSend true ++ exLoop false ++ exLoop false ++ exSend false ++ exLoop true ++ exWait 4

/-- It probes 1, which is answered, and then 2. -/
def exSecond : List (Move Bool) :=
  exLoop false ++ exLoop false ++ exSend false ++ exLoop true ++ exSend true ++ exLoop false ++ exLoop false ++ exSend false ++ exLoop true

/-- The hypotheses of `C123_newcomer` are met: the example waited for an answer about the nickname 1, got it, and goes on with 2. -/
example : (exFirst ++ exSecond).all exAlone = true ∧ InTurn (fun _ => 0) (exFirst ++ exSecond) ∧
    (match Spec.AvrSegment.run exParts exFirst (exStart 1 0xFF) with
      | .ok s => decide ((s.node false).fw.w.v.st = .init ∧ (s.node false).fw.w.v.ist ≠ .probeWait) && exKeeps exSecond s &&
        (match Spec.AvrSegment.run exParts (exSecond.take 10) s with
          | .ok s => decide ((s.node false).fw.w.v.ist = .probeWait ∧ (s.node false).fw.w.v.probe = 1)
          | _ => false) &&
        (match Spec.AvrSegment.run exParts exSecond s with
          | .ok s => decide ((s.node false).fw.w.v.ist = .probeWait ∧ (s.node false).fw.w.v.probe = 2) && decide (exLook (.ok s) = some [(true, 1, true), (false, 0xFF, true)])
          | _ => false)
      | _ => false) = true :=
  ⟨by decide +kernel, exTurn_ok _ _ (by decide +kernel), by decide +kernel⟩

end Vscp.AvrSegment
