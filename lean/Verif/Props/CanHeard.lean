/-
Property theorems: a node on a CAN bus hears everything which the others send (C127).
-/
import Verif.Spec.Heard
import Verif.Props.CanSegment

namespace Vscp.CanSegment
open M Vscp.Driver Vscp.Spec.CanSegment Vscp.Spec.CanDrv Vscp.CanDrvProps Vscp.Safety
open Vscp.Spec hiding Move
open Vscp.Spec.CanNode hiding Ok Paced
open Vscp.Driver.CanNode hiding Move run move run_append
open Vscp.Driver.CanDrv (BusFrame)

/-! ### Frames which are stored -/

/-- What the move does to the frames which the controller has stored. -/
def Stores (n n' : Node) : Driver.CanNode.Move → Prop
  | .rx b => (n'.x.2.stored = n.x.2.stored ∨ n'.x.2.stored = n.x.2.stored ++ [b]) ∧ (n.x.2.stored.length = n.heard.length → n'.x.2.stored = n.x.2.stored ++ [b])
  | _ => n'.x.2.stored = n.x.2.stored

theorem stores {c : Ctx} (hc : GoodCfg c) {cb : Callbacks} (hcb : CbOk cb) (a : Around) {n n' : Node} (h : Fine c n) {mv : Driver.CanNode.Move} (hm : Spec.CanNode.Ok mv)
    (e : Driver.CanNode.move c cb a n mv = .ok n') : Stores n n' mv := by
  cases mv with
  | cycle =>
    rcases cycle_good hc hcb a h.good with e' | ⟨n1, m, e1, -, -, -, e5, -⟩
    · rw [e'] at e; cases e
    rw [e1] at e
    cases e
    exact e5
  | call op =>
    rcases callFw_good hc hcb a (Ok.op hm) h.good with e1 | ⟨n1, e1, -, -, -, e5, -⟩
    · rw [show Driver.CanNode.move c cb a n (.call op) = callFw c cb a op n from rfl, e1] at e; cases e
    have ee : Res.ok n1 = Res.ok n' := e1.symm.trans e
    cases ee
    exact e5
  | rx b =>
    obtain ⟨-, g2⟩ := rx_good h.good b hm
    cases e
    refine ⟨?_, fun hl => ?_⟩
    · dsimp only
      split
      · exact .inr rfl
      · exact .inl rfl
    · obtain ⟨r, hr, -⟩ := unheard_cases h.good
      have hr0 : r = [] := by
        have := congrArg List.length hr
        rw [List.length_append, List.length_map, ← h.good.len] at this
        exact List.eq_nil_of_length_eq_zero (by omega)
      rw [hr0, List.append_nil] at hr
      simp [g2.2 hr]
  | tx => cases e; rfl

/-! ### The segment -/

section
variable {ι : Type} [DecidableEq ι]

theorem from_append (L L' : List (Option ι × BusFrame)) (a : Option ι) : sentBy (L ++ L') a = sentBy L a ++ sentBy L' a := by
  unfold sentBy
  rw [List.filter_append, List.map_append]

theorem from_none {L : List (Option ι × BusFrame)} {a : Option ι} (h : ∀ x ∈ L, x.1 ≠ a) : sentBy L a = [] := by
  unfold sentBy
  rw [List.filter_eq_nil_iff.2 fun x hx => by simpa using h x hx]
  rfl

theorem from_all (q : List BusFrame) (a : Option ι) : sentBy (q.map fun b => (a, b)) a = q := by
  unfold sentBy
  rw [List.filter_eq_self.2 fun x hx => by obtain ⟨b, -, rfl⟩ := List.mem_map.1 hx; simp]
  rw [List.map_map]
  exact List.map_id' q

variable {p : Parts ι}

/-- What node `i` has got since `s0`: the frames which its controller has stored (`L1`), and those which are on the way to it (`L2`).  Nothing is lost if `P`. -/
structure Woven (P : Prop) (i : ι) (s0 s : Segment ι) (f : List BusFrame) (L1 L2 : List (Option ι × BusFrame)) : Prop where
  stored : (s.node i).x.2.stored = (s0.node i).x.2.stored ++ L1.map Prod.snd
  inbox : s.inbox i = L2.map Prod.snd
  wire : ∀ a, a ≠ i → ∃ W, (s.node a).x.2.wire = (s0.node a).x.2.wire ++ W ∧ (sentBy (L1 ++ L2) (some a)).Sublist W ∧ (P → sentBy (L1 ++ L2) (some a) = W)
  own : ∀ x ∈ L1 ++ L2, x.1 ≠ some i
  outside : (sentBy L1 none).Sublist f
  inside : ∀ x ∈ L2, x.1 ≠ none
  out : ∀ a, ∃ t, (s.node a).w.out = (s0.node a).w.out ++ t

theorem woven_act (hp : Proper p) {P : Prop} {i : ι} {s0 s s' : Segment ι} {f : List BusFrame} {L1 L2 : List (Option ι × BusFrame)} (hs : Sound p s) (h : Woven P i s0 s f L1 L2) {j : ι}
    {mv : Driver.CanNode.Move} (hm : Spec.CanNode.Ok mv) {rest f' : List BusFrame}
    (hj : j = i → (∃ x L, L2 = x :: L ∧ mv = .rx x.2 ∧ rest = L.map Prod.snd ∧ (P → (s.node i).x.2.stored.length = (s.node i).heard.length)) ∨ rest = s.inbox i ∧ ∀ b, mv = .rx b → f' = f ++ [b])
    (hff : f.Sublist f') (e : act p s j mv rest = .ok s') : ∃ L1' L2', Woven P i s0 s' f' L1' L2' := by
  obtain ⟨n, hn, -, e2, e3, e4⟩ := act_eq e
  obtain ⟨-, ⟨q, t, hf⟩, -⟩ := moved (hp.cfg j _) (hp.cb j _) _ (hs.fine j) hm hn
  have hst := stores (hp.cfg j _) (hp.cb j _) _ (hs.fine j) hm hn
  have hq : n.x.2.wire.drop (s.node j).x.2.wire.length = q := by rw [hf.wire, List.drop_left]
  have hout : ∀ a, ∃ t, (s'.node a).w.out = (s0.node a).w.out ++ t := by
    intro a
    obtain ⟨t0, h0⟩ := h.out a
    by_cases ha : a = j
    · subst ha
      exact ⟨t0 ++ t, by rw [e2, hf.out, h0, List.append_assoc]⟩
    · exact ⟨t0, by rw [(e4 a ha).1]; exact h0⟩
  by_cases hji : j = i
  · subst hji
    have wire : ∀ {L}, (∀ a, sentBy L (some a) = sentBy (L1 ++ L2) (some a)) → ∀ a, a ≠ j →
        ∃ W, (s'.node a).x.2.wire = (s0.node a).x.2.wire ++ W ∧ (sentBy L (some a)).Sublist W ∧ (P → sentBy L (some a) = W) :=
      fun he a ha => by rw [(e4 a ha).1, he]; exact h.wire a ha
    rcases hj rfl with ⟨x, L, rfl, rfl, rfl, hl⟩ | ⟨rfl, hb⟩
    · have hx := h.inside x (List.mem_cons_self ..)
      have hin : ∀ y ∈ L, y.1 ≠ none := fun y hy => h.inside y (List.mem_cons_of_mem _ hy)
      have ea : L1 ++ [x] ++ L = L1 ++ x :: L := by simp
      by_cases he : (s'.node j).x.2.stored = (s.node j).x.2.stored ++ [x.2]
      · refine ⟨L1 ++ [x], L, ?_, e3, wire fun a => by rw [ea], by rw [ea]; exact h.own, ?_, hin, hout⟩
        · rw [he, h.stored]; simp
        · rw [from_append, from_none (L := [x]) fun y hy => by cases List.mem_singleton.1 hy; exact hx, List.append_nil]
          exact h.outside.trans hff
      · rw [e2] at he
        have hsub : (L1 ++ L).Sublist (L1 ++ x :: L) := (List.Sublist.refl L1).append (List.sublist_cons_self ..)
        refine ⟨L1, L, by rw [e2, hst.1.resolve_right he]; exact h.stored, e3, fun a ha => ?_, fun y hy => h.own y (hsub.subset hy), h.outside.trans hff, hin, hout⟩
        obtain ⟨W, w1, w2, -⟩ := h.wire a ha
        exact ⟨W, by rw [(e4 a ha).1]; exact w1, ((hsub.filter _).map _).trans w2, fun hP => absurd (hst.2 (hl hP)) he⟩
    · have same : (s'.node j).x.2.stored = (s.node j).x.2.stored → ∃ L1' L2', Woven P j s0 s' f' L1' L2' := fun he =>
        ⟨L1, L2, he.trans h.stored, e3.trans h.inbox, wire fun a => rfl, h.own, h.outside.trans hff, h.inside, hout⟩
      cases mv with
      | rx b =>
        cases hb b rfl
        rcases hst.1 with he | he
        · exact same (by rw [e2]; exact he)
        · refine ⟨L1 ++ [(none, b)], L2, ?_, e3.trans h.inbox, wire fun a => ?_, fun y hy => ?_, ?_, h.inside, hout⟩
          · rw [e2, he, h.stored]; simp
          · rw [from_append, from_append, from_none (L := [(none, b)]) fun y hy => (by cases List.mem_singleton.1 hy; exact fun h => (by cases h)), List.append_nil, from_append]
          · rcases List.mem_append.1 hy with hy | hy
            · rcases List.mem_append.1 hy with hy | hy
              · exact h.own y (List.mem_append_left _ hy)
              · cases List.mem_singleton.1 hy; exact fun h => (by cases h)
            · exact h.own y (List.mem_append_right _ hy)
          · rw [from_append]
            exact h.outside.append (List.Sublist.refl _)
      | cycle => exact same (by rw [e2]; exact hst)
      | call op => exact same (by rw [e2]; exact hst)
      | tx => exact same (by rw [e2]; exact hst)
  · obtain ⟨h1, h2⟩ := e4 i (Ne.symm hji)
    refine ⟨L1, L2 ++ q.map fun b => (some j, b), by rw [h1]; exact h.stored, ?_, fun a ha => ?_, fun y hy => ?_, h.outside.trans hff, fun y hy => ?_, hout⟩
    · rw [h2, h.inbox, hq, List.map_append, List.map_map]
      congr 1
      exact (List.map_id' q).symm
    · obtain ⟨W, w1, w2, w3⟩ := h.wire a ha
      rw [← List.append_assoc, from_append]
      by_cases haj : a = j
      · subst haj
        rw [from_all]
        exact ⟨W ++ q, by rw [e2, hf.wire, w1, List.append_assoc], w2.append (List.Sublist.refl _), fun hP => by rw [w3 hP]⟩
      · rw [(e4 a haj).1, from_none (L := q.map _) fun y hy => (by
          obtain ⟨b, -, rfl⟩ := List.mem_map.1 hy
          intro hc
          cases hc
          exact haj rfl), List.append_nil]
        exact ⟨W, w1, w2, w3⟩
    · rw [← List.append_assoc] at hy
      rcases List.mem_append.1 hy with hy | hy
      · exact h.own y hy
      · obtain ⟨b, -, rfl⟩ := List.mem_map.1 hy
        intro hc
        cases hc
        exact hji rfl
    · rcases List.mem_append.1 hy with hy | hy
      · exact h.inside y hy
      · obtain ⟨b, -, rfl⟩ := List.mem_map.1 hy
        exact fun hc => (by cases hc)

theorem woven_step (hp : Proper p) {P : Prop} {i : ι} {s0 s s' : Segment ι} {f : List BusFrame} {L1 L2 : List (Option ι × BusFrame)} (hs : Sound p s) (h : Woven P i s0 s f L1 L2)
    {mv : Move ι} (hm : CanSegment.Ok mv) (hd : P → mv = .deliver i → (s.node i).x.2.stored.length = (s.node i).heard.length) (hlife : ∀ j, s'.life j = s.life j)
    (e : step p s mv = .ok s') : ∃ L1' L2', Woven P i s0 s' (f ++ foreign i [mv]) L1' L2' := by
  cases mv with
  | own j cmv =>
    refine woven_act hp hs h hm (fun hj => .inr ⟨by rw [hj], fun b hb => ?_⟩) (List.sublist_append_left ..) e
    subst hb
    simp only [foreign, if_pos hj]
  | deliver j =>
    simp only [foreign, List.append_nil]
    simp only [step] at e
    cases hb : s.inbox j with
    | nil => rw [hb] at e; cases e; exact ⟨L1, L2, h⟩
    | cons b l =>
      rw [hb] at e
      have hv : Valid b := hs.inbox j b (by rw [hb]; exact List.mem_cons_self ..)
      refine woven_act hp hs h (mv := .rx b) hv (fun hj => .inl ?_) (List.Sublist.refl _) e
      subst hj
      cases L2 with
      | nil => have := h.inbox; rw [hb] at this; cases this
      | cons x L =>
        have hi := h.inbox
        rw [hb] at hi
        simp only [List.map_cons, List.cons.injEq] at hi
        exact ⟨x, L, rfl, by rw [hi.1], hi.2, fun hP => hd hP rfl⟩
  | power j ok ps ctl =>
    cases e
    have := hlife j
    simp at this

theorem life_step {s s' : Segment ι} {mv : Move ι} (e : step p s mv = .ok s') (j : ι) : s.life j ≤ s'.life j := by
  have one : ∀ {i : ι} {mv : Driver.CanNode.Move} {rest : List BusFrame}, act p s i mv rest = .ok s' → s.life j ≤ s'.life j := fun e => by
    obtain ⟨_, -, h, -⟩ := act_eq e
    rw [h]
    exact Nat.le_refl _
  cases mv with
  | own i cmv => exact one e
  | deliver i =>
    simp only [step] at e
    split at e
    · cases e; exact Nat.le_refl _
    · exact one e
  | power i ok ps ctl =>
    cases e
    dsimp only
    split
    · rename_i h; subst h; omega
    · exact Nat.le_refl _

theorem life_run : ∀ (l : List (Move ι)) {s s' : Segment ι}, run p l s = .ok s' → ∀ j, s.life j ≤ s'.life j
  | [], s, s', e, j => by cases e; exact Nat.le_refl _
  | mv :: l, s, s', e, j => by
    unfold run at e
    cases hx : step p s mv with
    | ub => rw [hx] at e; cases e
    | impossible => rw [hx] at e; cases e
    | ok s1 => rw [hx] at e; exact Nat.le_trans (life_step hx j) (life_run l e j)

omit [DecidableEq ι] in
theorem foreign_cons [DecidableEq ι] (i : ι) (mv : Move ι) (l : List (Move ι)) : foreign i (mv :: l) = foreign i [mv] ++ foreign i l := by
  cases mv with
  | own j cmv =>
    cases cmv with
    | rx b => simp only [foreign]; split <;> simp
    | _ => simp [foreign]
  | _ => simp [foreign]

theorem woven_run (hp : Proper p) {P : Prop} {i : ι} {s0 : Segment ι} : ∀ (l : List (Move ι)) {s s' : Segment ι} {f : List BusFrame} {L1 L2 : List (Option ι × BusFrame)}, Sound p s →
    Woven P i s0 s f L1 L2 → (∀ mv ∈ l, CanSegment.Ok mv) → (P → Hears p s l i) → (∀ j, s'.life j = s.life j) → run p l s = .ok s' →
    Sound p s' ∧ ∃ L1' L2', Woven P i s0 s' (f ++ foreign i l) L1' L2'
  | [], s, s', f, L1, L2, hs, h, _, _, _, e => by cases e; exact ⟨hs, L1, L2, by simpa [foreign] using h⟩
  | mv :: l, s, s', f, L1, L2, hs, h, hl, hh, hlife, e => by
    have hm := hl mv (List.mem_cons_self ..)
    unfold run at e
    cases hx : step p s mv with
    | ub => rw [hx] at e; cases e
    | impossible => rw [hx] at e; cases e
    | ok s1 =>
      rw [hx] at e
      have hl1 : ∀ j, s1.life j = s.life j := fun j => by
        have := hlife j
        have := life_step hx j
        have := life_run l e j
        omega
      obtain ⟨A, B, hw⟩ := woven_step hp hs h hm (fun hP hd => hh hP [] l s (by rw [hd]; rfl) rfl) hl1 hx
      rw [foreign_cons, ← List.append_assoc]
      refine woven_run hp l (sound_step hp hs hm hx) hw (fun mv h => hl mv (List.mem_cons_of_mem _ h)) ?_ (fun j => (hlife j).trans (hl1 j).symm) e
      intro hP pre post s2 e2 hr
      refine hh hP (mv :: pre) post s2 (by rw [e2]; rfl) ?_
      show (match step p s mv with | .ok s => run p pre s | .ub => .ub | .impossible => .impossible) = _
      rw [hx]
      exact hr

theorem woven_refl {P : Prop} {i : ι} {s : Segment ι} (h : s.inbox i = []) : Woven P i s s [] [] [] :=
  ⟨by simp, h, fun a _ => ⟨[], by simp, List.Sublist.refl _, fun _ => rfl⟩, fun _ h => (by cases h), List.Sublist.refl _, fun _ h => (by cases h), fun _ => ⟨[], by simp⟩⟩

/-- All frames which are stored are heard. -/
theorem stored_heard {c : Ctx} {n : Node} (h : Fine c n) (hl : n.x.2.stored.length = n.heard.length) (k : Nat) (hk : k < n.x.2.stored.length) (hk' : k < n.heard.length) :
    Carries n.x.2.stored[k] n.heard[k] := by
  obtain ⟨r, hr, -⟩ := unheard_cases h.good
  have hr0 : r = [] := by
    have := congrArg List.length hr
    rw [List.length_append, List.length_map, ← h.good.len] at this
    exact List.eq_nil_of_length_eq_zero (by omega)
  rw [hr0, List.append_nil] at hr
  have := h.good.heard k hk'
  simpa [hr] using this

/-- What has been heard since `s0`, if nothing is on the way. -/
theorem bears_of {P : Prop} {i : ι} {s0 s : Segment ι} {f : List BusFrame} {L1 L2 : List (Option ι × BusFrame)} {c : Ctx} (hf : Fine c (s.node i)) (h : Woven P i s0 s f L1 L2)
    (h0 : (s0.node i).x.2.stored.length = (s0.node i).heard.length) (h1 : (s.node i).x.2.stored.length = (s.node i).heard.length) :
    Bears L1 ((s.node i).heard.drop (s0.node i).heard.length) := by
  have hlen := congrArg List.length h.stored
  rw [List.length_append, List.length_map] at hlen
  refine ⟨by rw [List.length_drop]; omega, fun k hk hk' => ?_⟩
  have := stored_heard hf h1 ((s0.node i).heard.length + k) (by omega) (by omega)
  rw [List.getElem_drop]
  have e : (s.node i).x.2.stored[(s0.node i).heard.length + k]'(by omega) = L1[k].2 := by
    simp only [h.stored]
    rw [List.getElem_append_right (by omega)]
    simp only [List.getElem_map]
    congr 2
    omega
  rw [← e]
  exact this

/-- What node `a` has sent since `s0`, if nothing waits for that. -/
theorem sent_all {P : Prop} (hP : P) {i a : ι} (ha : a ≠ i) {s0 s : Segment ι} {f : List BusFrame} {L1 L2 : List (Option ι × BusFrame)} {c0 c : Ctx} (hf0 : Fine c0 (s0.node a)) (hf : Fine c (s.node a))
    (h : Woven P i s0 s f L1 L2) (h0 : (s0.node a).x.2.wire.length = (taken (s0.node a).w.out).length) (h1 : (s.node a).x.2.wire.length = (taken (s.node a).w.out).length)
    (hfit : ∀ m ∈ taken (s.node a).w.out, m.prio.toNat < 8 ∧ m.cls.toNat < 512) :
    (sentBy (L1 ++ L2) (some a)).Perm ((taken ((s.node a).w.out.drop (s0.node a).w.out.length)).map frameOf) := by
  have all : ∀ {c : Ctx} {n : Node}, Fine c n → n.x.2.wire.length = (taken n.w.out).length → n.x.2.wire.Perm ((taken n.w.out).map wireOf) := by
    intro c n hf hl
    have := hf.good.sends.inv.perm
    rw [hf.good.sends.taken] at this
    have hw := this.length_eq
    rw [List.length_append, List.length_map] at hw
    rw [List.eq_nil_of_length_eq_zero (show (waiting n.x.1).length = 0 by omega), List.append_nil] at this
    exact this
  obtain ⟨t, ht⟩ := h.out a
  have p0 := all hf0 h0
  have p1 := all hf h1
  obtain ⟨W, w1, -, w2⟩ := h.wire a ha
  rw [w1, ← w2 hP, ht, taken_append, List.map_append] at p1
  have := (List.perm_append_left_iff _).1 (p1.trans (p0.symm.append_right _))
  rw [ht, List.drop_left]
  refine this.trans ?_
  rw [List.map_congr_left fun m hm => wireOf_eq (hfit m (by rw [ht, taken_append]; exact List.mem_append_right _ hm)).1
    (hfit m (by rw [ht, taken_append]; exact List.mem_append_right _ hm)).2]

theorem sound_of (hp : Proper p) : ∀ (l : List (Move ι)) {s s' : Segment ι}, Sound p s → (∀ mv ∈ l, CanSegment.Ok mv) → run p l s = .ok s' → Sound p s'
  | [], s, s', h, _, e => by cases e; exact h
  | mv :: l, s, s', h, hl, e => by
    unfold run at e
    cases hx : step p s mv with
    | ub => rw [hx] at e; cases e
    | impossible => rw [hx] at e; cases e
    | ok s1 =>
      rw [hx] at e
      exact sound_of hp l (sound_step hp h (hl mv (List.mem_cons_self ..)) hx) (fun mv h => hl mv (List.mem_cons_of_mem _ h)) e

/-- C127: nodes on a CAN bus, from any state of any history on (`s0`), until a node is switched off.  What node `i` hears is what the controllers of all other nodes put on the bus, each frame
once, those of one node in the order of the bus, and frames of others than nodes; and each event which a node sends is such a frame.  Provided that the framework of node `i` runs before its
controller sees the next frame of a node, and that nothing is on the way to node `i` at the beginning and at the end. -/
theorem C127_heard (hp : Proper p) (ok : ι → Tmr → Bool) (ps : ι → Nat → U8) (ctl : ι → Driver.CanDrv.State) (pre l : List (Move ι)) (hl : ∀ mv ∈ pre ++ l, CanSegment.Ok mv)
    {s0 s : Segment ι} (e0 : run p pre (start p ok ps ctl) = .ok s0) (e : run p l s0 = .ok s) (hlife : ∀ j, s.life j = s0.life j) {i : ι} (hh : Hears p s0 l i)
    (hin0 : s0.inbox i = []) (hst0 : (s0.node i).x.2.stored.length = (s0.node i).heard.length) (hin : s.inbox i = []) (hst : (s.node i).x.2.stored.length = (s.node i).heard.length) :
    ∃ L : List (Option ι × BusFrame), Bears L ((s.node i).heard.drop (s0.node i).heard.length) ∧ (∀ x ∈ L, x.1 ≠ some i) ∧ (sentBy L none).Sublist (foreign i l) ∧
      (∀ a, a ≠ i → (s.node a).x.2.wire = (s0.node a).x.2.wire ++ sentBy L (some a)) ∧
      ∀ a, a ≠ i → (s0.node a).x.2.wire.length = (taken (s0.node a).w.out).length → (s.node a).x.2.wire.length = (taken (s.node a).w.out).length →
        (∀ m ∈ taken (s.node a).w.out, m.prio.toNat < 8 ∧ m.cls.toNat < 512) →
        (sentBy L (some a)).Perm ((taken ((s.node a).w.out.drop (s0.node a).w.out.length)).map frameOf) := by
  have hs0 := sound_of hp pre (sound_start hp ok ps ctl) (fun mv h => hl mv (List.mem_append_left _ h)) e0
  obtain ⟨hs, L1, L2, hw⟩ := woven_run hp l hs0 (woven_refl (P := True) hin0) (fun mv h => hl mv (List.mem_append_right _ h)) (fun _ => hh) hlife e
  have h2 : L2 = [] := by
    have := hw.inbox
    rw [hin] at this
    exact List.map_eq_nil_iff.1 this.symm
  subst h2
  refine ⟨L1, bears_of (hs.fine i) hw hst0 hst, fun x hx => hw.own x (List.mem_append_left _ hx), by simpa using hw.outside, fun a ha => ?_, fun a ha h0 h1 hfit => ?_⟩
  · obtain ⟨W, w1, -, w2⟩ := hw.wire a ha
    rw [w1, ← w2 trivial, List.append_nil]
  simpa using sent_all trivial ha (hs0.fine a) (hs.fine a) hw h0 h1 hfit

/-- What has been heard of the frames which are stored. -/
theorem bears_some {P : Prop} {i : ι} {s0 s : Segment ι} {f : List BusFrame} {L1 L2 : List (Option ι × BusFrame)} {c : Ctx} (hf : Fine c (s.node i)) (h : Woven P i s0 s f L1 L2)
    (h0 : (s0.node i).x.2.stored.length = (s0.node i).heard.length) :
    Bears (L1.take ((s.node i).heard.length - (s0.node i).heard.length)) ((s.node i).heard.drop (s0.node i).heard.length) := by
  obtain ⟨r, hr, -⟩ := unheard_cases hf.good
  have hlen := congrArg List.length h.stored
  have hrl := congrArg List.length hr
  rw [List.length_append, List.length_map] at hlen hrl
  rw [← hf.good.len] at hrl
  refine ⟨by rw [List.length_drop, List.length_take]; omega, fun k hk hk' => ?_⟩
  rw [List.length_drop] at hk'
  rw [List.length_take] at hk
  have := hf.good.heard ((s0.node i).heard.length + k) (by omega)
  rw [List.getElem_drop, List.getElem_take]
  have e : (s.node i).x.2.stored[(s0.node i).heard.length + k]'(by omega) = L1[k].2 := by
    simp only [h.stored]
    rw [List.getElem_append_right (by omega)]
    simp only [List.getElem_map]
    congr 2
    omega
  have e2 : (s.node i).x.2.stored[(s0.node i).heard.length + k]'(by omega) = onBus ((s.node i).x.2.got[(s0.node i).heard.length + k]'(by rw [← hf.good.len]; omega)) := by
    simp only [hr]
    rw [List.getElem_append_left (by rw [List.length_map, ← hf.good.len]; omega), List.getElem_map]
  rw [← e, e2]
  exact this

/-- C127: the same without anything about when the framework of node `i` runs, and whatever is on the way at the end: it hears nothing else than what the controllers of the others put on the bus and
frames of others than nodes, each of them at most once, and those of one node in the order of the bus. -/
theorem C127_no_more (hp : Proper p) (ok : ι → Tmr → Bool) (ps : ι → Nat → U8) (ctl : ι → Driver.CanDrv.State) (pre l : List (Move ι)) (hl : ∀ mv ∈ pre ++ l, CanSegment.Ok mv)
    {s0 s : Segment ι} (e0 : run p pre (start p ok ps ctl) = .ok s0) (e : run p l s0 = .ok s) (hlife : ∀ j, s.life j = s0.life j) {i : ι}
    (hin0 : s0.inbox i = []) (hst0 : (s0.node i).x.2.stored.length = (s0.node i).heard.length) :
    ∃ L : List (Option ι × BusFrame), Bears L ((s.node i).heard.drop (s0.node i).heard.length) ∧ (∀ x ∈ L, x.1 ≠ some i) ∧ (sentBy L none).Sublist (foreign i l) ∧
      ∀ a, a ≠ i → ∃ W, (s.node a).x.2.wire = (s0.node a).x.2.wire ++ W ∧ (sentBy L (some a)).Sublist W := by
  have hs0 := sound_of hp pre (sound_start hp ok ps ctl) (fun mv h => hl mv (List.mem_append_left _ h)) e0
  obtain ⟨hs, L1, L2, hw⟩ := woven_run hp l hs0 (woven_refl (P := False) hin0) (fun mv h => hl mv (List.mem_append_right _ h)) (fun h => h.elim) hlife e
  have hsub := List.take_sublist ((s.node i).heard.length - (s0.node i).heard.length) L1
  refine ⟨_, bears_some (hs.fine i) hw hst0, fun x hx => hw.own x (List.mem_append_left _ (hsub.subset hx)), ?_, fun a ha => ?_⟩
  · have hn : (sentBy (L1.take ((s.node i).heard.length - (s0.node i).heard.length)) none).Sublist (sentBy L1 none) := (hsub.filter _).map _
    simpa using hn.trans hw.outside
  · obtain ⟨W, w1, w2, -⟩ := hw.wire a ha
    exact ⟨W, w1, (((hsub.trans (List.sublist_append_left L1 L2)).filter _).map _).trans w2⟩

end

/-! ### Two nodes -/

/-- What the examples show: whether the hypotheses about the beginning and the end are met, the number of events which the first node hears, and of those which the second one sends. -/
def exHeard (pre l : List (Move Bool)) (s : Segment Bool) : Option (Bool × Nat × Nat) :=
  match run exParts pre s with
  | .ok s0 => match run exParts l s0 with
    | .ok s =>
      let r : Bool := decide (s0.inbox true = [] ∧ s.inbox true = [] ∧ (s0.node true).x.2.stored.length = (s0.node true).heard.length ∧ (s.node true).x.2.stored.length = (s.node true).heard.length)
      let t : Bool := decide (s.life true = s0.life true ∧ s.life false = s0.life false ∧ (s0.node false).x.2.wire.length = (taken (s0.node false).w.out).length ∧
        (s.node false).x.2.wire.length = (taken (s.node false).w.out).length ∧ ∀ m ∈ taken (s.node false).w.out, m.prio.toNat < 8 ∧ m.cls.toNat < 512)
      some (r && t, (s.node true).heard.length - (s0.node true).heard.length, (taken ((s.node false).w.out.drop (s0.node false).w.out.length)).length)
    | _ => none
  | _ => none

/-- The hypotheses of `C127_heard` are met by a node which looks for a nickname and one which hears its three probes. -/
example : (∀ mv ∈ exFirst ++ exSecond, CanSegment.Ok mv) ∧ (∀ s0, run exParts exFirst (exStart 1 0xFF) = .ok s0 → Hears exParts s0 exSecond true) ∧
    exHeard exFirst exSecond (exStart 1 0xFF) = some (true, 3, 3) := by
  have hok : ∀ mv ∈ exFirst ++ exSecond, CanSegment.Ok mv := by simp [exFirst, exSecond, exCyc, exTx, CanSegment.Ok, Spec.CanNode.Ok]
  refine ⟨hok, fun s0 e pre post s1 => ?_, by decide +kernel⟩
  have hpc : Paced exParts (exStart 1 0xFF) (exFirst ++ exSecond) := C122_in_turn ex_proper _ _ _ _ hok (by simp [exFirst, exSecond, exCyc, exTx, InTurn, next])
  exact (sound_run ex_proper exFirst exSecond _ _ (sound_start ex_proper _ _ _) (fun mv h => hok mv (List.mem_append_left _ h)) hpc e).2 pre true post s1

/-- Those of `C127_no_more`, and not those of `C127_heard`: the node runs at the end only, and one of two frames is lost. -/
example : exHeard exFirst ((exSecond.filter fun | .own true .cycle => false | _ => true) ++ [exCyc true]) (exStart 1 0xFF) = some (true, 1, 2) := by decide +kernel

end Vscp.CanSegment
