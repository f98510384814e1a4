/-
Property theorems: an event of one node on a CAN bus reaches the others, and what they send because of it comes back (C129).
-/
import Verif.Spec.Event
import Verif.Props.CanRequest

namespace Vscp.CanSegment
open M Vscp.Driver Vscp.Spec.CanSegment Vscp.Spec.CanDrv Vscp.CanDrvProps Vscp.Safety
open Vscp.Spec hiding Move
open Vscp.Spec.CanNode hiding Ok Paced
open Vscp.Driver.CanNode hiding Move run move run_append
open Vscp.Driver.CanDrv (BusFrame)

theorem same_of {m m' : Msg} (h8 : m.prio.toNat < 8) (hc : m.cls.toNat < 512) (h : Carries (wireOf m) m') : SameEvent m m' := by
  rw [wireOf_eq h8 hc] at h
  obtain ⟨h1, h2, h3, h4, h5⟩ := h
  have e : Drv.canId m' = Drv.canId m := h1
  unfold Drv.canId at e
  have a1 := m.typ.isLt
  have a2 := m'.typ.isLt
  have a3 := m.oAddr.isLt
  have a4 := m'.oAddr.isLt
  have a5 : m.hard.toNat < 2 := by cases m.hard <;> decide
  have a6 : m'.hard.toNat < 2 := by cases m'.hard <;> decide
  refine ⟨BitVec.eq_of_toNat_eq (by omega), BitVec.eq_of_toNat_eq (by omega), BitVec.eq_of_toNat_eq (by omega), BitVec.eq_of_toNat_eq (by omega), ?_, h4, h5 rfl⟩
  have : m'.hard.toNat = m.hard.toNat := by omega
  revert this
  cases m.hard <;> cases m'.hard <;> decide

section
variable {ι : Type} [DecidableEq ι] {p : Parts ι}

/-- What a node sends in a move is on the way to the others. -/
theorem sent_way {s s' : Segment ι} {mv : Move ι} (h : Stepped p s s' mv) {a b : ι} (hab : a ≠ b) (hl : s'.life a = s.life a) {m : Msg}
    (hm : m ∈ taken ((s'.node a).w.out.drop (s.node a).w.out.length)) : OnWay s' a b (wireOf m) := by
  cases h with
  | none e => subst e; rw [List.drop_eq_nil_of_le (Nat.le_refl _)] at hm; cases hm
  | power k _ _ ho hk =>
    have hka : a ≠ k := by rintro rfl; omega
    rw [(ho a hka).1, List.drop_eq_nil_of_le (Nat.le_refl _)] at hm
    cases hm
  | act k cmv t hmv hact hin =>
    by_cases hka : a = k
    · subst hka
      rw [hact.out, List.drop_left] at hm
      exact hact.sends m hm b (Ne.symm hab)
    · rw [(hact.other a hka).1, List.drop_eq_nil_of_le (Nat.le_refl _)] at hm
      cases hm

/-- A frame which is on the way is heard. -/
theorem way_heard (hp : Proper p) {i j : ι} (hij : i ≠ j) {b : BusFrame} {l : List (Move ι)} {s s' : Segment ι} (hs : Sound p s) (hl : ∀ mv ∈ l, CanSegment.Ok mv) (hpc : Paced p s l)
    (hi : s'.life i = s.life i) (hj : s'.life j = s.life j) (h : OnWay s i j b) (hn : ¬OnWay s' i j b) (e : run p l s = .ok s') :
    ∃ m ∈ (s'.node j).heard.drop (s.node j).heard.length, Carries b m := by
  obtain ⟨l1, l2, s1, s2, m, har⟩ := arrives hp hij l hs hl hpc hi hj h hn e
  have a1 := life_run l1 har.before j
  have a2 := life_step har.cycle j
  have a3 := life_run l2 har.behind j
  obtain ⟨u, hu⟩ := heard_run hp (j := j) l1 hs (fun mv h => hl mv (by rw [har.split]; exact List.mem_append_left _ h)) (by omega) har.before
  obtain ⟨v, hv⟩ := heard_run hp (j := j) l2 har.sound' (fun mv h => hl mv (by rw [har.split]; exact List.mem_append_right _ (List.mem_cons_of_mem _ h))) (by omega) har.behind
  refine ⟨m, ?_, har.carries⟩
  rw [hv, har.heard, hu, List.append_assoc, List.append_assoc, List.drop_left]
  simp

/-- C129: nodes on a CAN bus, whatever they, their applications and other participants do and whenever, if the framework of each node runs between two frames of others.  Node `a` sends an event (in any
move, by its framework or its application) which has a place in a frame, and neither `a` nor `b` are switched off until nothing is on the way from and to both.  Then the framework of node `b` has
processed this event in one of the cycles since then, and node `a` has heard each event which `b` has sent in this cycle. -/
theorem C129_heard (hp : Proper p) (ok : ι → Tmr → Bool) (ps : ι → Nat → U8) (ctl : ι → Driver.CanDrv.State) (pre : List (Move ι)) (mv : Move ι) (l : List (Move ι))
    (hl : ∀ mv' ∈ pre ++ mv :: l, CanSegment.Ok mv') (hpc : Paced p (start p ok ps ctl) (pre ++ mv :: l)) {s0 s1 s : Segment ι} (e0 : run p pre (start p ok ps ctl) = .ok s0)
    (e1 : step p s0 mv = .ok s1) (e : run p l s1 = .ok s) {a b : ι} (hab : a ≠ b) (hla : s.life a = s0.life a) (hlb : s.life b = s0.life b) (ha : Silent s a) (hb : Silent s b)
    {m : Msg} (hm : m ∈ taken ((s1.node a).w.out.drop (s0.node a).w.out.length)) (h8 : m.prio.toNat < 8) (hc : m.cls.toNat < 512) :
    ∃ l1 l2 s2 s3, l = l1 ++ .own b .cycle :: l2 ∧ run p l1 s1 = .ok s2 ∧ step p s2 (.own b .cycle) = .ok s3 ∧ run p l2 s3 = .ok s ∧
      (∃ m', SameEvent m m' ∧ (s3.node b).heard = (s2.node b).heard ++ [m'] ∧
        (s3.node b).w = (stepOpC (p.ctx b (s2.life b)) (p.cb b (s2.life b)) (.process (some m')) (s2.node b).w).2) ∧
      ∀ f ∈ taken ((s3.node b).w.out.drop (s2.node b).w.out.length), f.prio.toNat < 8 → f.cls.toNat < 512 → ∃ m' ∈ (s.node a).heard.drop (s3.node a).heard.length, SameEvent f m' := by
  have hl' : ∀ mv' ∈ mv :: l, CanSegment.Ok mv' := fun mv' h => hl mv' (List.mem_append_right _ h)
  obtain ⟨hs0, hpc0⟩ := sound_run hp pre (mv :: l) _ _ (sound_start hp ok ps ctl) (fun mv h => hl mv (List.mem_append_left _ h)) hpc e0
  obtain ⟨hs1, hst⟩ := stepped hp hs0 (hl' mv (List.mem_cons_self ..)) (paced_head hpc0) e1
  have hll : ∀ mv' ∈ l, CanSegment.Ok mv' := fun mv' h => hl' mv' (List.mem_cons_of_mem _ h)
  have hsz := sound_of hp l hs1 hll e
  have a1 := life_step e1 a
  have a2 := life_run l e a
  have b1 := life_step e1 b
  have b2 := life_run l e b
  obtain ⟨l1, l2, s2, s3, m', har⟩ := arrives hp hab l hs1 hll (paced_tail e1 hpc0) (by omega) (by omega) (sent_way hst hab (by omega) hm) (silent_none hsz ha hb) e
  refine ⟨l1, l2, s2, s3, har.split, har.before, har.cycle, har.behind, ⟨m', same_of h8 hc har.carries, har.heard, har.call⟩, fun f hf f8 fc => ?_⟩
  have hl2 : ∀ mv' ∈ l2, CanSegment.Ok mv' := fun mv' h => hll mv' (by rw [har.split]; exact List.mem_append_right _ (List.mem_cons_of_mem _ h))
  have a3 := life_run l1 har.before a
  have b3 := life_run l1 har.before b
  have a4 := life_step har.cycle a
  have b4 := life_step har.cycle b
  have a5 := life_run l2 har.behind a
  have b5 := life_run l2 har.behind b
  have hw : OnWay s3 b a (wireOf f) := by
    obtain ⟨t, hac⟩ := har.acted
    rw [hac.out, List.drop_left] at hf
    exact hac.sends f hf a hab
  obtain ⟨m'', h1, h2⟩ := way_heard hp (Ne.symm hab) har.sound' hl2 har.paced (by omega) (by omega) hw (silent_none hsz hb ha) har.behind
  exact ⟨m'', h1, same_of f8 fc h2⟩

end

/-- The hypotheses of `C129_heard` are met by the nodes and the request of `C128_answered`. -/
example : (∀ mv ∈ exMet ++ .own true (.call (.sendEvent exAsk)) :: exReply, CanSegment.Ok mv) ∧ Paced exParts (exStart 1 2) (exMet ++ .own true (.call (.sendEvent exAsk)) :: exReply) ∧
    exAsk.prio.toNat < 8 ∧ exAsk.cls.toNat < 512 ∧
    exLook (run exParts (exMet ++ .own true (.call (.sendEvent exAsk)) :: exReply) (exStart 1 2)) = some [(true, 1, true), (true, 2, true)] ∧
    exTalk exMet [.own true (.call (.sendEvent exAsk))] (exStart 1 2) = some ([(9, 1, [2, 0x91])], []) ∧
    exTalk (exMet ++ [.own true (.call (.sendEvent exAsk))]) exReply (exStart 1 2) = some ([], [(10, 2, [0x91, 2])]) := by
  have hok : ∀ mv ∈ exMet ++ .own true (.call (.sendEvent exAsk)) :: exReply, CanSegment.Ok mv := by
    simp [exMet, exReply, exCyc, exTx, CanSegment.Ok, Spec.CanNode.Ok, Op.inCallback]
  refine ⟨hok, C122_in_turn ex_proper _ _ _ _ hok ?_, by decide, by decide, by decide +kernel, by decide +kernel, by decide +kernel⟩
  simp [exMet, exReply, exCyc, exTx, InTurn, next]

end Vscp.CanSegment
