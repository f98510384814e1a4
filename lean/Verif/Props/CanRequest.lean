/-
Property theorems: a request of one node on a CAN bus to another one is answered (C128).
-/
import Verif.Props.CanHeard
import Verif.Props.CanAsk

namespace Vscp.CanSegment
open M Vscp.Driver Vscp.Spec.CanSegment Vscp.Spec.CanDrv Vscp.CanDrvProps Vscp.Safety
open Vscp.Spec hiding Move
open Vscp.Spec.CanNode hiding Ok Paced
open Vscp.Driver.CanNode hiding Move run move run_append
open Vscp.Driver.CanDrv (BusFrame)

/-! ### A node -/

/-- All events which the framework sends are taken. -/
theorem steps_taken {c : Ctx} (hlb : c.loopback = false) (hok : ∀ n, c.txOk n = true) {bad : Prop} {A : List Act} {w w' : W} (h : Steps c bad A w w') : ∃ t, w'.out = w.out ++ t ∧ ∀ m r, .tx m r ∈ t → r = true := by
  refine h.rel (R := fun w w' => ∃ t, w'.out = w.out ++ t ∧ ∀ m r, .tx m r ∈ t → r = true) (fun w => ⟨[], by simp, by simp⟩) ?_ ?_
  · rintro w w' w'' ⟨t, ht, hf⟩ ⟨t', ht', hf'⟩
    refine ⟨t ++ t', by rw [ht', ht, List.append_assoc], fun m r hm => ?_⟩
    rcases List.mem_append.1 hm with hm | hm
    · exact hf m r hm
    · exact hf' m r hm
  · intro b hb w w' hs
    have key : ∀ m : Msg, ∃ t, (Transport.writeMessage c m w).2.out = w.out ++ t ∧ ∀ m r, .tx m r ∈ t → r = true := by
      intro m
      obtain ⟨tp, ub, t, e, ht⟩ := writeMessage_frame c m w
      refine ⟨t, by rw [e], fun m' r hm => ?_⟩
      rcases ht with rfl | ⟨rfl, -⟩
      · simp only [List.mem_singleton, Out.tx.injEq] at hm
        rw [hm.2, Transport.writeMessage_run, if_neg (by rw [hlb]; simp)]
        exact hok _
      · cases hm
    by_cases e1 : b = .tx
    · subst e1
      obtain ⟨m, -, -, -, rfl⟩ := hs
      exact key m
    · by_cases e2 : ∃ m, b = .userTx m
      · obtain ⟨m, rfl⟩ := e2
        cases hs
        exact key m
      · obtain ⟨t, ht, hq⟩ := hs.quiet e1 (fun m e => e2 ⟨m, e⟩)
        refine ⟨t, ht, fun m r hm => ?_⟩
        exfalso
        unfold frames at hq
        rw [List.filterMap_eq_nil_iff] at hq
        exact absurd (hq _ hm) (by simp)

/-- An active node sends the answers of the table. -/
theorem cycle_table {c : Ctx} {cb : Callbacks} (hcb : CbOk cb) (hlb : c.loopback = false) (hpn : c.protoNotify = false) (hok : ∀ n, c.txOk n = true) {w : W} (ha : w.v.st = .active) (hL : LbOk c w)
    {m : Msg} {typ : U8} {data : List U8} {F : List (U8 × List U8)} (h : Answers c w typ data F) (hm : Request m typ data) (hop : (Op.process (some m)).Ok) :
    ∃ t, (stepOpC c cb (.process (some m)) w).2.out = w.out ++ t ∧ ∀ f ∈ F, .tx (event c w.v.nick 3 f.1 f.2) true ∈ t := by
  have hni : (preProcess c (some m) w).2.v.nick = w.v.nick := pre_same c (some m) w .nick (by decide)
  have hpg : (preProcess c (some m) w).2.v.page = w.v.page := pre_same c (some m) w .page (by decide)
  obtain ⟨t1, h1, h2⟩ := Ask.C120_sends (Ask.moved hni hpg (value_pre c (some m) w) h) hm
  rw [pre_out] at h1
  obtain ⟨t2, h3⟩ := answer_cycle hcb hlb hpn ha hm.cls h1
  obtain ⟨L, -, hs⟩ := stepOpC_steps hcb hop hL
  obtain ⟨t, ht, hall⟩ := steps_taken hlb hok hs
  have et : t = t1 ++ t2 := by
    rw [ht, List.append_assoc] at h3
    exact List.append_cancel_left h3
  refine ⟨t, ht, fun f hf => ?_⟩
  have hmem : event c w.v.nick 3 f.1 f.2 ∈ frames t1 := by
    rw [h2, hni]
    exact List.mem_map_of_mem hf
  obtain ⟨o, ho, e⟩ := List.mem_filterMap.1 hmem
  cases o with
  | tx m' r =>
    cases e
    have hin : Out.tx (event c w.v.nick 3 f.1 f.2) r ∈ t := by rw [et]; exact List.mem_append_left _ ho
    have := hall _ _ hin
    subst this
    exact hin
  | _ => cases e

theorem request_wire {m : Msg} {typ : U8} {data : List U8} (h : Request m typ data) (h8 : data.length ≤ 8) (hp : m.prio.toNat < 8) : wireOf m = protocol m.prio m.hard typ m.oAddr data := by
  have hl : (BitVec.ofNat 8 data.length : U8).toNat = data.length := by rw [BitVec.toNat_ofNat]; omega
  rw [wireOf_eq hp (by rw [h.cls]; decide)]
  have hpl : payload m = data := by
    unfold payload
    rw [h.size, hl]
    exact h.data
  unfold frameOf protocol
  rw [hpl, h.size]
  unfold Drv.canId
  rw [h.cls, h.typ]
  have e0 : (0 : U16).toNat = 0 := rfl
  simp only [BusFrame.mk.injEq, true_and, and_true]
  omega

theorem carries_from {prio typ origin : U8} {hard : Bool} {data : List U8} {m : Msg} (h : Carries (protocol prio hard typ origin data) m) : m.oAddr = origin := by
  obtain ⟨h1, h2, h3, -⟩ := h
  have e : Drv.canId m = prio.toNat * 2 ^ 26 + hard.toNat * 2 ^ 25 + typ.toNat * 2 ^ 8 + origin.toNat := h1
  unfold Drv.canId at e
  have := m.oAddr.isLt
  have := origin.isLt
  exact BitVec.eq_of_toNat_eq (by omega)

/-! ### The segment -/

section
variable {ι : Type} [DecidableEq ι] {p : Parts ι}

theorem run_cons {s s1 : Segment ι} {mv : Move ι} {l : List (Move ι)} (e : step p s mv = .ok s1) : run p (mv :: l) s = run p l s1 := by
  show (match step p s mv with | .ok s => run p l s | .ub => .ub | .impossible => .impossible) = _
  rw [e]

/-- What a node has heard stays so until it is switched off. -/
theorem heard_step (hp : Proper p) {s s' : Segment ι} (hs : Sound p s) {mv : Move ι} (hm : CanSegment.Ok mv) {j : ι} (hl : s'.life j = s.life j) (e : step p s mv = .ok s') :
    ∃ t, (s'.node j).heard = (s.node j).heard ++ t := by
  have one : ∀ {i : ι} {cmv : Driver.CanNode.Move} {rest : List BusFrame}, Spec.CanNode.Ok cmv → act p s i cmv rest = .ok s' → ∃ t, (s'.node j).heard = (s.node j).heard ++ t := by
    intro i cmv rest ho e
    obtain ⟨-, t, ha⟩ := acted hp hs ho e
    by_cases hji : j = i
    · subst hji
      have heff := ha.effect
      cases cmv with
      | cycle => obtain ⟨m, -, e2, -⟩ := heff; exact ⟨_, e2⟩
      | call op => exact ⟨[], by rw [heff.2.2.1, List.append_nil]⟩
      | rx b => exact ⟨[], by rw [heff.2.1, List.append_nil]⟩
      | tx => exact ⟨[], by rw [heff.2.1, List.append_nil]⟩
    · exact ⟨[], by rw [(ha.other j hji).1, List.append_nil]⟩
  cases mv with
  | own i cmv => exact one hm e
  | deliver i =>
    simp only [step] at e
    cases hb : s.inbox i with
    | nil => rw [hb] at e; cases e; exact ⟨[], by simp⟩
    | cons b l =>
      rw [hb] at e
      exact one (cmv := .rx b) (hs.inbox i b (by rw [hb]; exact List.mem_cons_self ..)) e
  | power i ok ps ctl =>
    cases e
    dsimp only at hl ⊢
    by_cases hji : j = i
    · subst hji; simp at hl
    · rw [if_neg hji]; exact ⟨[], by simp⟩

theorem heard_run (hp : Proper p) {j : ι} : ∀ (l : List (Move ι)) {s s' : Segment ι}, Sound p s → (∀ mv ∈ l, CanSegment.Ok mv) → s'.life j = s.life j → run p l s = .ok s' →
    ∃ t, (s'.node j).heard = (s.node j).heard ++ t
  | [], s, s', _, _, _, e => by cases e; exact ⟨[], by simp⟩
  | mv :: l, s, s', hs, hl, hlife, e => by
    have hm := hl mv (List.mem_cons_self ..)
    unfold run at e
    cases hx : step p s mv with
    | ub => rw [hx] at e; cases e
    | impossible => rw [hx] at e; cases e
    | ok s1 =>
      rw [hx] at e
      have h1 := life_step hx j
      have h2 := life_run l e j
      obtain ⟨t, ht⟩ := heard_step hp hs hm (j := j) (by omega) hx
      obtain ⟨t', ht'⟩ := heard_run hp (j := j) l (sound_step hp hs hm hx) (fun mv h => hl mv (List.mem_cons_of_mem _ h)) (by omega) e
      exact ⟨t ++ t', by rw [ht', ht, List.append_assoc]⟩

/-- Node `j` hears the frame `b` in a history `l`: in the cycle between `s1` and `s2`. -/
structure Arrives (p : Parts ι) (l : List (Move ι)) (s s' : Segment ι) (j : ι) (b : BusFrame) (l1 l2 : List (Move ι)) (s1 s2 : Segment ι) (m : Msg) : Prop where
  split : l = l1 ++ .own j .cycle :: l2
  before : run p l1 s = .ok s1
  cycle : step p s1 (.own j .cycle) = .ok s2
  behind : run p l2 s2 = .ok s'
  sound : Sound p s1
  sound' : Sound p s2
  paced : Paced p s2 l2
  carries : Carries b m
  heard : (s2.node j).heard = (s1.node j).heard ++ [m]
  acted : ∃ t, Acted p s1 s2 j .cycle t
  call : (s2.node j).w = (stepOpC (p.ctx j (s1.life j)) (p.cb j (s1.life j)) (.process (some m)) (s1.node j).w).2

/-- A frame which is on the way arrives. -/
theorem arrives (hp : Proper p) {i j : ι} (hij : i ≠ j) {b : BusFrame} : ∀ (l : List (Move ι)) {s s' : Segment ι}, Sound p s → (∀ mv ∈ l, CanSegment.Ok mv) → Paced p s l →
    s'.life i = s.life i → s'.life j = s.life j → OnWay s i j b → ¬OnWay s' i j b → run p l s = .ok s' → ∃ l1 l2 s1 s2 m, Arrives p l s s' j b l1 l2 s1 s2 m
  | [], s, s', _, _, _, _, _, h, hn, e => by cases e; exact absurd h hn
  | mv :: l, s, s', hs, hl, hpc, hli, hlj, h, hn, e => by
    have hm := hl mv (List.mem_cons_self ..)
    have e0 := e
    unfold run at e
    cases hx : step p s mv with
    | ub => rw [hx] at e; cases e
    | impossible => rw [hx] at e; cases e
    | ok s1 =>
      rw [hx] at e
      obtain ⟨hs1, hst⟩ := stepped hp hs hm (paced_head hpc) hx
      have i1 := life_step hx i
      have i2 := life_run l e i
      have j1 := life_step hx j
      have j2 := life_run l e j
      have next : OnWay s1 i j b → ∃ l1 l2 s1 s2 m, Arrives p (mv :: l) s s' j b l1 l2 s1 s2 m := by
        intro h1
        obtain ⟨l1, l2, s2, s3, m, ha⟩ := arrives hp hij l hs1 (fun mv h => hl mv (List.mem_cons_of_mem _ h)) (paced_tail hx hpc) (by omega) (by omega) h1 hn e
        exact ⟨mv :: l1, l2, s2, s3, m, by rw [ha.split]; rfl, (run_cons hx).trans ha.before, ha.cycle, ha.behind, ha.sound, ha.sound', ha.paced, ha.carries, ha.heard, ha.acted, ha.call⟩
      cases hst with
      | none e => subst e; exact next h
      | power k _ _ ho hk =>
        have hki : i ≠ k := by rintro rfl; omega
        have hkj : j ≠ k := by rintro rfl; omega
        refine next ?_
        unfold OnWay at h ⊢
        rw [(ho i hki).1, (ho j hkj).1, (ho j hkj).2]
        exact h
      | act k cmv t hmv hact hin =>
        rcases onWay_act hact hin hij h with h | ⟨rfl, rfl, hu⟩
        · exact next h
        · obtain ⟨m, c1, c2, -, ⟨-, c3⟩ | ⟨m', b', rfl, c4, c5⟩⟩ := hact.effect
          · rw [hu] at c3; cases c3
          · rw [hu] at c4
            cases c4
            cases hmv rfl
            exact ⟨[], l, s, s1, m', rfl, rfl, hx, e, hs, hs1, paced_tail hx hpc, c5, c2, ⟨t, hact⟩, c1⟩

/-- C128: nodes on a CAN bus, whatever they, their applications and other participants do and whenever, if the framework of each node runs between two frames of others.  Node `a` sends an event of the
protocol class (in any move, by its framework or its application), and neither `a` nor `b` are switched off until nothing is on the way from and to both.  Then node `b` has heard it, in one of the cycles since then;
and if `b` was active at this time, and the event is a request of the table to it, node `a` has heard the answers of the table behind that. -/
theorem C128_answered (hp : Proper p) (ok : ι → Tmr → Bool) (ps : ι → Nat → U8) (ctl : ι → Driver.CanDrv.State) (pre : List (Move ι)) (mv : Move ι) (l : List (Move ι))
    (hl : ∀ mv' ∈ pre ++ mv :: l, CanSegment.Ok mv') (hpc : Paced p (start p ok ps ctl) (pre ++ mv :: l)) {s0 s1 s : Segment ι} (e0 : run p pre (start p ok ps ctl) = .ok s0)
    (e1 : step p s0 mv = .ok s1) (e : run p l s1 = .ok s) {a b : ι} (hab : a ≠ b) (hla : s.life a = s0.life a) (hlb : s.life b = s0.life b) (ha : Silent s a) (hb : Silent s b)
    {m : Msg} (hm : m ∈ taken ((s1.node a).w.out.drop (s0.node a).w.out.length)) (h8 : m.prio.toNat < 8) {typ : U8} {data : List U8} (hr : Request m typ data) (hd : data.length ≤ 8) :
    ∃ l1 l2 s2 s3, l = l1 ++ .own b .cycle :: l2 ∧ run p l1 s1 = .ok s2 ∧ step p s2 (.own b .cycle) = .ok s3 ∧ run p l2 s3 = .ok s ∧
      (∃ m', (s3.node b).heard = (s2.node b).heard ++ [m'] ∧ Request m' typ data ∧ m'.oAddr = m.oAddr) ∧
      ((s2.node b).w.v.st = .active → ∀ F, Answers (p.ctx b (s2.life b)) (s2.node b).w typ data F → ∀ f ∈ F,
        ∃ m' ∈ (s.node a).heard.drop (s3.node a).heard.length, Carries (protocol 3 (p.ctx b (s2.life b)).hardCoded f.1 (s2.node b).w.v.nick f.2) m') := by
  have hl' : ∀ mv' ∈ mv :: l, CanSegment.Ok mv' := fun mv' h => hl mv' (List.mem_append_right _ h)
  obtain ⟨hs0, hpc0⟩ := sound_run hp pre (mv :: l) _ _ (sound_start hp ok ps ctl) (fun mv h => hl mv (List.mem_append_left _ h)) hpc e0
  obtain ⟨hs1, hst⟩ := stepped hp hs0 (hl' mv (List.mem_cons_self ..)) (paced_head hpc0) e1
  have hll : ∀ mv' ∈ l, CanSegment.Ok mv' := fun mv' h => hl' mv' (List.mem_cons_of_mem _ h)
  have hsz := sound_of hp l hs1 hll e
  have a1 := life_step e1 a
  have a2 := life_run l e a
  have b1 := life_step e1 b
  have b2 := life_run l e b
  have hw : OnWay s1 a b (wireOf m) := by
    cases hst with
    | none e => subst e; rw [List.drop_eq_nil_of_le (Nat.le_refl _)] at hm; cases hm
    | power k _ _ ho hk =>
      have hka : a ≠ k := by rintro rfl; omega
      rw [(ho a hka).1, List.drop_eq_nil_of_le (Nat.le_refl _)] at hm
      cases hm
    | act k cmv t hmv hact hin =>
      by_cases hka : a = k
      · subst hka
        rw [hact.out, List.drop_left] at hm
        exact hact.sends m hm b (Ne.symm hab)
      · rw [(hact.other a hka).1, List.drop_eq_nil_of_le (Nat.le_refl _)] at hm
        cases hm
  obtain ⟨l1, l2, s2, s3, m', har⟩ := arrives hp hab l hs1 hll (paced_tail e1 hpc0) (by omega) (by omega) hw (silent_none hsz ha hb) e
  have hcar := har.carries
  rw [request_wire hr hd h8] at hcar
  have hreq := carries_protocol h8 hd hcar
  refine ⟨l1, l2, s2, s3, har.split, har.before, har.cycle, har.behind, ⟨m', har.heard, hreq, carries_from hcar⟩, fun hact F hF f hf => ?_⟩
  obtain ⟨t, hac⟩ := har.acted
  obtain ⟨n2, hn2⟩ := cycle_table (hp.cb b (s2.life b)) (hp.lb b (s2.life b)) (hp.proto b (s2.life b)) (hp.tx b (s2.life b)) hact (har.sound.fine b).good.lb hF hreq (by
    show m'.size.toNat ≤ 8
    rw [hreq.size, BitVec.toNat_ofNat]
    omega)
  have hw2 : OnWay s3 b a (wireOf (event (p.ctx b (s2.life b)) (s2.node b).w.v.nick 3 f.1 f.2)) :=
    new_frame hac hab (by rw [har.call]; exact hn2.1) (hn2.2 f hf)
  have hl2 : ∀ mv' ∈ l2, CanSegment.Ok mv' := fun mv' h => hll mv' (by rw [har.split]; exact List.mem_append_right _ (List.mem_cons_of_mem _ h))
  have a3 := life_run l1 har.before a
  have b3 := life_run l1 har.before b
  have a4 := life_step har.cycle a
  have b4 := life_step har.cycle b
  have a5 := life_run l2 har.behind a
  have b5 := life_run l2 har.behind b
  obtain ⟨l3, l4, s4, s5, m'', har2⟩ := arrives hp (Ne.symm hab) l2 har.sound' hl2 har.paced (by omega) (by omega) hw2 (silent_none hsz hb ha) har.behind
  have a6 := life_run l3 har2.before a
  have a7 := life_step har2.cycle a
  have a8 := life_run l4 har2.behind a
  obtain ⟨u, hu⟩ := heard_run hp (j := a) l3 har.sound' (fun mv' h => hl2 mv' (by rw [har2.split]; exact List.mem_append_left _ h)) (by omega) har2.before
  obtain ⟨v, hv⟩ := heard_run hp (j := a) l4 har2.sound' (fun mv' h => hl2 mv' (by rw [har2.split]; exact List.mem_append_right _ (List.mem_cons_of_mem _ h))) (by omega) har2.behind
  refine ⟨m'', ?_, ?_⟩
  · rw [hv, har2.heard, hu, List.append_assoc, List.append_assoc, List.drop_left]
    simp
  · have := har2.carries
    rwa [wireOf_event _ _ 3 f.1 (by decide) f.2 ((Ask.short hF).2 f hf)] at this

end

/-! ### Two nodes -/

/-- Two nodes with the nicknames 1 and 2 get active, and hear that from each other. -/
def exMet : List (Move Bool) := [exCyc true, exTx true, .deliver false, exCyc false, exCyc false, exTx false, .deliver true, exCyc true]

/-- The application of the first one asks for register 0x91 of the second one. -/
def exAsk : Msg := ⟨3, 0, 9, 1, false, 2, bytes8 [2, 0x91]⟩

def exReply : List (Move Bool) := [exTx true, .deliver false, exCyc false, exTx false, .deliver true, exCyc true]

/-- What the first node sends and hears in the moves `l`. -/
def exTalk (pre l : List (Move Bool)) (s : Segment Bool) : Option (List (U8 × U8 × List U8) × List (U8 × U8 × List U8)) :=
  match run exParts pre s with
  | .ok s0 => match run exParts l s0 with
    | .ok s => some ((taken ((s.node true).w.out.drop (s0.node true).w.out.length)).map (fun m => (m.typ, m.oAddr, payload m)),
        ((s.node true).heard.drop (s0.node true).heard.length).map fun m => (m.typ, m.oAddr, payload m))
    | _ => none
  | _ => none

/-- The hypotheses of `C128_answered` are met: both nodes are active and silent before and behind; the request is sent in the first move, and its answer, the nickname, is heard. -/
example : (∀ mv ∈ exMet ++ .own true (.call (.sendEvent exAsk)) :: exReply, CanSegment.Ok mv) ∧ Paced exParts (exStart 1 2) (exMet ++ .own true (.call (.sendEvent exAsk)) :: exReply) ∧
    Request exAsk 9 [2, 0x91] ∧ exLook (run exParts exMet (exStart 1 2)) = some [(true, 1, true), (true, 2, true)] ∧
    exLook (run exParts (exMet ++ .own true (.call (.sendEvent exAsk)) :: exReply) (exStart 1 2)) = some [(true, 1, true), (true, 2, true)] ∧
    exTalk exMet [.own true (.call (.sendEvent exAsk))] (exStart 1 2) = some ([(9, 1, [2, 0x91])], []) ∧
    exTalk (exMet ++ [.own true (.call (.sendEvent exAsk))]) exReply (exStart 1 2) = some ([], [(10, 2, [0x91, 2])]) := by
  have hok : ∀ mv ∈ exMet ++ .own true (.call (.sendEvent exAsk)) :: exReply, CanSegment.Ok mv := by
    simp [exMet, exReply, exCyc, exTx, CanSegment.Ok, Spec.CanNode.Ok, Op.inCallback]
  refine ⟨hok, C122_in_turn ex_proper _ _ _ _ hok ?_, ⟨rfl, rfl, rfl, by decide⟩, by decide +kernel, by decide +kernel, by decide +kernel, by decide +kernel⟩
  simp [exMet, exReply, exCyc, exTx, InTurn, next]

end Vscp.CanSegment
