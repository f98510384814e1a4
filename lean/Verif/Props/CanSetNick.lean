/-
Property theorems: a node on a CAN bus which is told a new nickname by another one confirms that to it (C130).
-/
import Verif.Props.CanEvents
import Verif.Props.SetNick

namespace Vscp.CanSegment
open M Vscp.Driver Vscp.Spec.CanSegment Vscp.Spec.CanDrv Vscp.CanDrvProps Vscp.Safety
open Vscp.Spec hiding Move
open Vscp.Spec.CanNode hiding Ok Paced
open Vscp.Driver.CanNode hiding Move run move run_append
open Vscp.Driver.CanDrv (BusFrame)

theorem request_same {m m' : Msg} (h : SameEvent m m') {typ : U8} {data : List U8} (h8 : data.length ≤ 8) (hr : Request m typ data) : Request m' typ data := by
  have hl : (BitVec.ofNat 8 data.length : U8).toNat = data.length := by rw [BitVec.toNat_ofNat]; omega
  have hs : m'.size = BitVec.ofNat 8 data.length := h.size.trans hr.size
  have hd := h.data
  rw [hs, hr.size, hl, hr.data] at hd
  exact ⟨h.cls.trans hr.cls, h.typ.trans hr.typ, hs, hd⟩

/-- An active node which is told a new nickname sends the confirmation, and it is taken. -/
theorem cycle_confirms {c : Ctx} {cb : Callbacks} (hcb : CbOk cb) (hlb : c.loopback = false) (hpn : c.protoNotify = false) (hok : ∀ n, c.txOk n = true) {w : W} (ha : w.v.st = .active) (hL : LbOk c w)
    {m : Msg} {v : U8} (hv : v ≠ 0) (hm : Request m 6 [w.v.nick, v]) (hop : (Op.process (some m)).Ok) :
    ∃ t, (stepOpC c cb (.process (some m)) w).2.out = w.out ++ t ∧ .tx (event c v 7 7 []) true ∈ t := by
  have hni : (preProcess c (some m) w).2.v.nick = w.v.nick := pre_same c (some m) w .nick (by decide)
  obtain ⟨-, -, -, r, h1⟩ := SetNick.handler_set (c := c) (w := (preProcess c (some m) w).2) (by rw [hni]; exact hm) hv
  rw [pre_out] at h1
  obtain ⟨t2, h3⟩ := answer_cycle hcb hlb hpn ha hm.cls h1
  obtain ⟨L, -, hs⟩ := stepOpC_steps hcb hop hL
  obtain ⟨t, ht, hall⟩ := steps_taken hlb hok hs
  have et : t = [.psW (Ps.addrNickname c) v, .tx (event c v 7 7 []) r] ++ t2 := by
    rw [ht, List.append_assoc] at h3
    exact List.append_cancel_left h3
  have hin : Out.tx (event c v 7 7 []) r ∈ t := by rw [et]; simp
  have := hall _ _ hin
  subst this
  exact ⟨t, ht, hin⟩

section
variable {ι : Type} [DecidableEq ι] {p : Parts ι}

/-- C130: nodes on a CAN bus as in C129.  Node `a` sends a set nickname event with the nickname `n` and the new nickname `v` (other than 0), and neither `a` nor `b` are switched off until nothing is on
the way from and to both.  Then node `b` has processed it in one of its cycles since then; and if `b` was active at this time, and had the nickname `n`, node `a` has heard the confirmation behind that, from a
node with the nickname `v`. -/
theorem C130_confirmed (hp : Proper p) (ok : ι → Tmr → Bool) (ps : ι → Nat → U8) (ctl : ι → Driver.CanDrv.State) (pre : List (Move ι)) (mv : Move ι) (l : List (Move ι))
    (hl : ∀ mv' ∈ pre ++ mv :: l, CanSegment.Ok mv') (hpc : Paced p (start p ok ps ctl) (pre ++ mv :: l)) {s0 s1 s : Segment ι} (e0 : run p pre (start p ok ps ctl) = .ok s0)
    (e1 : step p s0 mv = .ok s1) (e : run p l s1 = .ok s) {a b : ι} (hab : a ≠ b) (hla : s.life a = s0.life a) (hlb : s.life b = s0.life b) (ha : Silent s a) (hb : Silent s b)
    {m : Msg} (hm : m ∈ taken ((s1.node a).w.out.drop (s0.node a).w.out.length)) (h8 : m.prio.toNat < 8) {n v : U8} (hv : v ≠ 0) (hr : Request m 6 [n, v]) :
    ∃ l1 l2 s2 s3, l = l1 ++ .own b .cycle :: l2 ∧ run p l1 s1 = .ok s2 ∧ step p s2 (.own b .cycle) = .ok s3 ∧ run p l2 s3 = .ok s ∧
      (∃ m', SameEvent m m' ∧ (s3.node b).heard = (s2.node b).heard ++ [m']) ∧
      ((s2.node b).w.v.st = .active → (s2.node b).w.v.nick = n → ∃ g ∈ (s.node a).heard.drop (s3.node a).heard.length, SameEvent (event (p.ctx b (s2.life b)) v 7 7 []) g) := by
  have hl1 : ∀ mv' ∈ pre ++ mv :: l, CanSegment.Ok mv' := hl
  obtain ⟨l1, l2, s2, s3, q1, q2, q3, q4, ⟨m', q5, q6, q7⟩, q8⟩ := C129_heard hp ok ps ctl pre mv l hl hpc e0 e1 e hab hla hlb ha hb hm h8 (by rw [hr.cls]; decide)
  refine ⟨l1, l2, s2, s3, q1, q2, q3, q4, ⟨m', q5, q6⟩, fun hact hn => ?_⟩
  have hreq : Request m' 6 [(s2.node b).w.v.nick, v] := by rw [hn]; exact request_same q5 (by simp) hr
  have hs2 : Sound p s2 := by
    have hs0 := sound_of hp pre (sound_start hp ok ps ctl) (fun mv h => hl1 mv (List.mem_append_left _ h)) e0
    have hs1 := sound_step hp hs0 (hl1 mv (List.mem_append_right _ (List.mem_cons_self ..))) e1
    exact sound_of hp l1 hs1 (fun mv h => hl1 mv (List.mem_append_right _ (List.mem_cons_of_mem _ (by rw [q1]; exact List.mem_append_left _ h)))) q2
  obtain ⟨t, ht, hin⟩ := cycle_confirms (hp.cb b (s2.life b)) (hp.lb b (s2.life b)) (hp.proto b (s2.life b)) (hp.tx b (s2.life b)) hact (hs2.fine b).good.lb hv hreq (by
    show m'.size.toNat ≤ 8
    rw [hreq.size]
    exact (by decide : (2 : U8).toNat ≤ 8))
  refine q8 _ ?_ (show (7 : U8).toNat < 8 by decide) (show (0 : U16).toNat < 512 by decide)
  rw [q7, ht, List.drop_left]
  exact List.mem_filterMap.2 ⟨_, hin, rfl⟩

end

/-- The application of the first node tells the second one the nickname 9. -/
def exTell : Msg := ⟨3, 0, 6, 1, false, 2, bytes8 [2, 9]⟩

/-- The hypotheses of `C130_confirmed` are met: both nodes are active and silent before and behind; the second one has the new nickname, and its confirmation is heard. -/
example : (∀ mv ∈ exMet ++ .own true (.call (.sendEvent exTell)) :: exReply, CanSegment.Ok mv) ∧ Paced exParts (exStart 1 2) (exMet ++ .own true (.call (.sendEvent exTell)) :: exReply) ∧
    Request exTell 6 [2, 9] ∧ exTell.prio.toNat < 8 ∧ exLook (run exParts exMet (exStart 1 2)) = some [(true, 1, true), (true, 2, true)] ∧
    exLook (run exParts (exMet ++ .own true (.call (.sendEvent exTell)) :: exReply) (exStart 1 2)) = some [(true, 1, true), (true, 9, true)] ∧
    exTalk exMet [.own true (.call (.sendEvent exTell))] (exStart 1 2) = some ([(6, 1, [2, 9])], []) ∧
    exTalk (exMet ++ [.own true (.call (.sendEvent exTell))]) exReply (exStart 1 2) = some ([], [(7, 9, [])]) := by
  have hok : ∀ mv ∈ exMet ++ .own true (.call (.sendEvent exTell)) :: exReply, CanSegment.Ok mv := by
    simp [exMet, exReply, exCyc, exTx, CanSegment.Ok, Spec.CanNode.Ok, Op.inCallback]
  refine ⟨hok, C122_in_turn ex_proper _ _ _ _ hok ?_, ⟨rfl, rfl, rfl, by decide⟩, by decide, by decide +kernel, by decide +kernel, by decide +kernel, by decide +kernel⟩
  simp [exMet, exReply, exCyc, exTx, InTurn, next]

end Vscp.CanSegment
