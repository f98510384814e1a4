/-
Property theorems: nodes with the same nickname on a CAN bus (C122).
-/
import Verif.Spec.CanSegment
import Verif.Props.CanNode
import Verif.Props.Network
import Verif.Props.SpeechC
import Verif.Lemmas.CalloutWalk

namespace Vscp.CanSegment
open M Vscp.Driver Vscp.Spec.CanSegment Vscp.Spec.CanDrv Vscp.CanDrvProps Vscp.Safety
open Vscp.Spec hiding Move
open Vscp.Spec.CanNode hiding Ok Paced
open Vscp.Driver.CanNode hiding Move run move run_append
open Vscp.Driver.CanDrv (BusFrame)

/-! ### Cycles with callbacks -/

section
variable {c : Ctx} {cb : Callbacks} (hcb : CbOk cb)
include hcb

theorem op_keeps {n : U8} {op : Op} (hp : ∀ rx, op ≠ .process rx) {w : W} (h : Keeps n w) : Keeps n (stepOp c op w).2 := by
  by_cases ha : w.v.st = .active
  · have := Keeps.op (c := c) hp w
    rcases h ha with e | e
    · rw [e] at this; exact this
    · rw [e] at this
      intro h1
      rcases this h1 with h2 | h2 <;> exact .inr h2
  · exact .of_not (op_notActive hp ha)

theorem inCallback_ne {w : W} {op : Op} (h : op ∈ cb w) : ∀ rx, op ≠ .process rx := by
  rintro rx rfl
  exact hcb w _ h

theorem keeps_walk : Walk c cb fun w w' => ∀ n, Keeps n w → Keeps n w' where
  refl := fun _ _ h => h
  trans := fun h h' n hk => h' n (h n hk)
  own := fun h n hk => Keeps.steps h (by decide) hk
  call := by
    intro w n hk
    show Keeps n (runOps c (cb w) w)
    have hl : ∀ op ∈ cb w, ∀ rx, op ≠ .process rx := fun op h => inCallback_ne hcb h
    generalize cb w = l at hl
    induction l generalizing w with
    | nil => exact hk
    | cons op l ih =>
      exact ih _ (op_keeps hcb (hl op (List.mem_cons_self ..)) hk) fun op h => hl op (List.mem_cons_of_mem _ h)

theorem awaits_walk (q : U8) : Walk c cb fun w w' => ¬awaits w q → ¬awaits w' q where
  refl := fun _ h => h
  trans := fun h h' hk => h' (h hk)
  own := by
    intro w w' h hk ha
    obtain ⟨e1, e2⟩ := h.same .init (by decide)
    exact hk ⟨(h.same .st (by decide)).symm.trans ha.1, e1.symm.trans ha.2.1, e2.symm.trans ha.2.2⟩
  call := by
    intro w hk
    show ¬awaits (runOps c (cb w) w) q
    have hl : ∀ op ∈ cb w, ∀ rx, op ≠ .process rx := fun op h => inCallback_ne hcb h
    generalize cb w = l at hl
    induction l generalizing w with
    | nil => exact hk
    | cons op l ih =>
      exact ih _ (fun h => hk (op_awaits (hl op (List.mem_cons_self ..)) h).1) fun op h => hl op (List.mem_cons_of_mem _ h)

variable (hlb : c.loopback = false) (hpn : c.protoNotify = false) {rx : Option Msg} {w : W}

/-- An active node does not wait for an answer after a cycle. -/
theorem active_awaits (hpn : c.protoNotify = false) (ha : w.v.st = .active) (q : U8) : ¬awaits (Core.processC c cb rx w).2 q := by
  have hk : Discovery.K (preProcess c rx w).2 := fun e => absurd ((pre_same c rx w .st (by decide)).symm.trans e) (by rw [ha]; decide)
  have hn : ∀ {w : W}, Discovery.K w → ¬awaits w q := fun hk h => by
    have := hk h.1
    rw [h.2.1] at this
    cases this
  rcases active_walk (rx := rx) (awaits_walk (c := c) hcb q) ha with ⟨m, w1, h0, ht, e, -, hR⟩ | ⟨h, -⟩ | hR
  · rw [e hpn] at hR
    exact hR (hn (Discovery.K_handler c m _ hk))
  · rw [hpn] at h; cases h
  · exact hR (hn hk)

include hlb in
omit hcb in
theorem read_eq : (Transport.readMessage c rx w).1 = rx := by
  unfold Transport.readMessage
  rw [if_neg (by rw [hlb]; decide)]
  rfl

include hlb in
/-- An active node keeps its nickname in a cycle, unless it is to use another one. -/
theorem cycle_keeps (hpn : c.protoNotify = false) (ha : w.v.st = .active) (hm : ∀ m, rx = some m → ¬(m.cls = 0 ∧ m.typ = 6)) : Keeps w.v.nick (Core.processC c cb rx w).2 := by
  have hn : Keeps w.v.nick (preProcess c rx w).2 := fun _ => .inl (pre_same c rx w .nick (by decide))
  rcases active_walk (rx := rx) (keeps_walk (c := c) hcb) ha with ⟨m, w1, h0, ht, e, -, hR⟩ | ⟨h, -⟩ | hR
  · rw [e hpn] at hR
    have hr : rx = some m := (read_eq hlb (w := w)).symm.trans ht.2.1
    exact hR _ (Keeps.handler c m (fun h6 => hm m hr ⟨h0, h6⟩) hn)
  · rw [hpn] at h; cases h
  · exact hR _ hn

include hlb hpn

/-- An active node answers a probe of its nickname. -/
theorem cycle_answers (hok : ∀ n, c.txOk n = true) {m : Msg} {q : U8} (hu : uses w q) (hm : IsProbe m q) :
    ∃ t, (stepOpC c cb (.process (some m)) w).2.out = w.out ++ t ∧ .tx (event c q 0 3 []) true ∈ t := by
  have hn : (preProcess c (some m) w).2.v.nick = q := (pre_same c (some m) w .nick (by decide)).trans hu.2
  have ho := pre_out c (some m) w
  obtain ⟨t2, h2⟩ := answer_cycle (m := m) hcb hlb hpn hu.1 hm.1 (t1 := [.tx (event c q 0 3 []) true]) (by
    show (Core.handleProtocolClassType c m _).2.out = _
    rw [handler2 hm.2.1, Core.handleNewNodeOnline, bind_run, get_run, whenM_run, if_pos ⟨by rw [hm.2.2.1], by rw [hn, hm.2.2.2]⟩,
      txVoid_run c 0 3 [] (by decide)]
    show (sent c _ _).out = _
    rw [sent_out, hok, ho, frame, hn])
  exact ⟨_, by rw [h2, List.append_assoc], by simp⟩

/-- The answer of another node with the own nickname makes the node look for another one. -/
theorem cycle_leaves {m : Msg} {q : U8} (hu : uses w q) (hm : IsAck m q) : (stepOpC c cb (.process (some m)) w).2.v.st ≠ .active := by
  have hn : (preProcess c (some m) w).2.v.nick = q := (pre_same c (some m) w .nick (by decide)).trans hu.2
  have hst : (preProcess c (some m) w).2.v.st = .active := (pre_same c (some m) w .st (by decide)).trans hu.1
  have hr : (preProcess c (some m) w).1 = some m := by rw [preProcess_rx, read_eq hlb]
  obtain ⟨L, -, hs⟩ := protocol_cycle hcb hpn hst hr hm.1
  refine notActive_steps hs ?_ ?_
  · rw [List.all_append, Bool.and_eq_true]
    exact ⟨by decide, by simp [Act.notActive]⟩
  · rw [handler3 hm.2.1]
    unfold Core.handleProbeAck
    rw [bind_run, get_run, whenM_run, if_pos ⟨hm.2.2.1, by rw [hn, hm.2.2.2]⟩, (changeInit_run c true _ (by rw [hst]; decide)).1]
    decide

end

/-! ### A move of a node -/

/-- The frames which the controller has stored, and the framework has not heard. -/
def unheard (n : Node) : List BusFrame := n.x.2.stored.drop n.heard.length

theorem feed_sizes (a : Around) (n : Nat) (t : List Out) (x : Drv) (h : Inv x) {y : Drv} (e : feed a n t x = .ok y) : ∀ m ∈ taken t, m.size.toNat ≤ 8 := by
  induction t generalizing n x with
  | nil => intro m hm; cases hm
  | cons o t ih =>
    by_cases ho : ∃ m r, o = .tx m r
    · obtain ⟨m, r, rfl⟩ := ho
      obtain ⟨⟨r', z⟩, h1, h2, -, -, -, -, h8, -⟩ := writeMessage_inv m (a.wstack n) (a.hw n) x h
      simp only [feed, h1] at e
      by_cases hr : r' = r
      · subst hr
        rw [if_pos rfl] at e
        have ht : taken (Out.tx m r' :: t) = (if r' then [m] else []) ++ taken t := by cases r' <;> rfl
        rw [ht]
        intro m' hm'
        rcases List.mem_append.1 hm' with hm' | hm'
        · cases r' with
          | false => cases hm'
          | true => rw [List.mem_singleton.1 hm']; exact h8 rfl
        · exact ih _ _ h2 e m' hm'
      · rw [if_neg hr] at e; cases e
    · have : feed a n (o :: t) x = feed a (n + 1) t x ∧ taken (o :: t) = taken t := by
        cases o <;> first | exact ⟨rfl, rfl⟩ | exact absurd ⟨_, _, rfl⟩ ho
      rw [this.2]
      exact ih _ _ h (this.1 ▸ e)

/-- A node in a history of the segment. -/
structure Fine (c : Ctx) (n : Node) : Prop where
  good : Good c n
  size : ∀ m ∈ taken n.w.out, m.size.toNat ≤ 8

theorem onWire_valid {m : Msg} (h : m.size.toNat ≤ 8) : Valid (wireOf m) := by
  refine ⟨?_, h, ?_⟩
  · show _ % 2 ^ 29 < 2 ^ 29
    exact Nat.mod_lt _ (by decide)
  · show (payload m).length = m.size.toNat
    unfold payload
    simp
    omega

theorem Fine.valid {c : Ctx} {n : Node} (h : Fine c n) {b : BusFrame} (hb : b ∈ n.x.2.wire ++ waiting n.x.1) : Valid b := by
  have := h.good.sends.inv.perm.mem_iff.1 hb
  rw [h.good.sends.taken] at this
  obtain ⟨m, hm, rfl⟩ := List.mem_map.1 this
  exact onWire_valid (h.size m hm)

/-- What the move does to the framework and to the frames which it gets. -/
def Effect (c : Ctx) (cb : Callbacks) (n n' : Node) : Driver.CanNode.Move → Prop
  | .cycle => ∃ m, n'.w = (stepOpC c cb (.process m) n.w).2 ∧ n'.heard = n.heard ++ m.toList ∧ unheard n' = [] ∧
      ((m = none ∧ unheard n = []) ∨ ∃ m' b, m = some m' ∧ unheard n = [b] ∧ Carries b m')
  | .call op => n'.w = (stepOp c op n.w).2 ∧ (∀ rx, op ≠ .process rx) ∧ n'.heard = n.heard ∧ unheard n' = unheard n
  | .rx b => n'.w = n.w ∧ n'.heard = n.heard ∧ (∀ b' ∈ unheard n, b' ∈ unheard n') ∧ (unheard n = [] → unheard n' = [b])
  | .tx => n'.w = n.w ∧ n'.heard = n.heard ∧ unheard n' = unheard n

/-- What the move does to the frames of the node: they are sent, or wait for that. -/
structure Flow (n n' : Node) (q : List BusFrame) (t : List Out) : Prop where
  wire : n'.x.2.wire = n.x.2.wire ++ q
  out : n'.w.out = n.w.out ++ t
  perm : (q ++ waiting n'.x.1).Perm (waiting n.x.1 ++ (taken t).map wireOf)

theorem flow {c : Ctx} {n n' : Node} (h : Good c n) (h' : Good c n') {q : List BusFrame} {t : List Out} (hq : n'.x.2.wire = n.x.2.wire ++ q)
    (ht : n'.w.out = n.w.out ++ t) : Flow n n' q t := by
  refine ⟨hq, ht, ?_⟩
  have h1 := h.sends.inv.perm
  have h2 := h'.sends.inv.perm
  rw [h.sends.taken] at h1
  rw [h'.sends.taken, ht, taken_append, List.map_append, hq, List.append_assoc] at h2
  have := h2.trans (h1.symm.append_right _)
  rw [List.append_assoc] at this
  exact (List.perm_append_left_iff _).1 this

theorem unheard_eq {c : Ctx} {n : Node} (h : Good c n) {r : List BusFrame} (e : n.x.2.stored = n.x.2.got.map onBus ++ r) : unheard n = r := by
  unfold unheard
  rw [e, h.len, ← List.length_map (f := onBus), List.drop_left]

theorem unheard_cases {c : Ctx} {n : Node} (h : Good c n) : ∃ r : List BusFrame, n.x.2.stored = n.x.2.got.map onBus ++ r ∧ r.length ≤ 1 := by
  rcases h.sends.inv.mob0 with ⟨-, e⟩ | ⟨_, b, -, -, -, e⟩
  · exact ⟨[], by simpa using e, by simp⟩
  · exact ⟨[b], e, by simp⟩

theorem moved {c : Ctx} (hc : GoodCfg c) {cb : Callbacks} (hcb : CbOk cb) (a : Around) {n n' : Node} (h : Fine c n) {mv : Driver.CanNode.Move} (hm : Spec.CanNode.Ok mv)
    (e : Driver.CanNode.move c cb a n mv = .ok n') : Fine c n' ∧ (∃ q t, Flow n n' q t) ∧ Effect c cb n n' mv := by
  have call : ∀ {op : Op} {n1 : Node}, op.Ok → LbOk c n1.w → Inv n1.x → callFw c cb a op n1 = .ok n' → ∃ t, n'.w.out = n1.w.out ++ t ∧ ∀ m ∈ taken t, m.size.toNat ≤ 8 := by
    intro op n1 hop hlb hi e
    obtain ⟨L, -, hs⟩ := stepOpC_steps hcb hop hlb
    obtain ⟨t, ht, -⟩ := hs.outs
    unfold callFw at e
    dsimp only at e
    rw [ht, List.drop_left] at e
    cases hf : feed a n1.w.out.length t n1.x with
    | ok y =>
      rw [hf] at e
      cases e
      exact ⟨t, ht, feed_sizes a _ t _ hi hf⟩
    | ub => rw [hf] at e; cases e
    | impossible => rw [hf] at e; cases e
  have sizes : ∀ {t : List Out}, n'.w.out = n.w.out ++ t → (∀ m ∈ taken t, m.size.toNat ≤ 8) → ∀ m ∈ taken n'.w.out, m.size.toNat ≤ 8 := by
    intro t ht h8 m hm
    rw [ht, taken_append] at hm
    exact (List.mem_append.1 hm).elim (h.size m) (h8 m)
  cases mv with
  | cycle =>
    rcases cycle_good hc hcb a h.good with e' | ⟨n1, m, e1, e2, e3, e4, e5, e6, e7, q, e8⟩
    · rw [e'] at e; cases e
    rw [e1] at e
    cases e
    obtain ⟨⟨m1, x⟩, r1, r2, -⟩ := readMessage_inv (a.rstack n.w.out.length) (a.old n.w.out.length) n.x h.good.sends.inv
    simp only [Driver.CanNode.move, r1] at e1
    have hop : (Op.process m1).Ok := by
      have : n'.heard = n.heard ++ m1.toList := by
        unfold callFw at e1
        dsimp only at e1
        split at e1
        · cases e1; rfl
        · cases e1
        · cases e1
      have hmm : m1 = m := by
        have := List.append_cancel_left (this.symm.trans e4)
        cases m1 <;> cases m <;> simp_all
      rw [hmm]; exact e7
    obtain ⟨t, ht, h8⟩ := call hop (n1 := { n with x := x, heard := n.heard ++ m1.toList }) h.good.lb r2 e1
    refine ⟨⟨e2, sizes ht h8⟩, ⟨q, t, flow h.good e2 e8 ht⟩, m, e3, e4, unheard_eq e2 (by rw [e6]; simp), ?_⟩
    have hun : unheard n = (n'.x.2.got.map onBus).drop n.heard.length := by unfold unheard; rw [← e5, e6]
    have hl := e2.len
    rw [e4, List.length_append] at hl
    cases m with
    | none =>
      refine .inl ⟨rfl, ?_⟩
      rw [hun, List.drop_eq_nil_iff, List.length_map]
      simp at hl
      omega
    | some m =>
      have hl : n.heard.length + 1 = n'.x.2.got.length := hl
      have hi : n.heard.length < n'.heard.length := by rw [e4]; simp
      have hcar := e2.heard n.heard.length hi
      have hg : n'.heard[n.heard.length]'hi = m := by simp [e4]
      rw [hg] at hcar
      refine .inr ⟨m, _, rfl, ?_, hcar⟩
      rw [hun, List.drop_eq_getElem_cons (by rw [List.length_map]; omega), List.drop_eq_nil_of_le (by rw [List.length_map]; omega)]
      simp
  | call op =>
    rcases callFw_good hc hcb a (Ok.op hm) h.good with e1 | ⟨n1, e1, e2, e3, e4, e5, e6, q, e7⟩
    · rw [show Driver.CanNode.move c cb a n (.call op) = callFw c cb a op n from rfl, e1] at e; cases e
    have e' : callFw c cb a op n = .ok n' := e
    have ee : Res.ok n1 = Res.ok n' := e1.symm.trans e'
    cases ee
    obtain ⟨t, ht, h8⟩ := call (Ok.op hm) h.good.lb h.good.sends.inv e'
    have hnp : ∀ rx, op ≠ .process rx := by
      rintro rx rfl
      rcases hm with hm | ⟨_, hm⟩
      · exact hm
      · cases hm
    refine ⟨⟨e2, sizes ht h8⟩, ⟨q, t, flow h.good e2 e7 ht⟩, ?_, hnp, e4, by unfold unheard; rw [e4, e5]⟩
    rw [e3]
    cases op <;> first | rfl | exact absurd rfl (hnp _)
  | rx b =>
    obtain ⟨g1, g2⟩ := rx_good h.good b hm
    cases e
    have hw : (if (CanDrv.rx b n.x.1).2 then { n.x.2 with stored := n.x.2.stored ++ [b] } else n.x.2).wire = n.x.2.wire ++ [] := by split <;> simp
    refine ⟨⟨g1, h.size⟩, ⟨[], [], flow h.good g1 hw (by simp)⟩, rfl, rfl, ?_, ?_⟩
    · intro b' hb'
      unfold unheard at hb' ⊢
      dsimp only
      split
      · exact List.mem_of_mem_drop (i := 0) (by
          rw [List.drop_zero, List.drop_append]
          exact List.mem_append_left _ hb')
      · exact hb'
    · intro hu
      obtain ⟨r, hr, -⟩ := unheard_cases h.good
      rw [unheard_eq h.good hr] at hu
      rw [hu, List.append_nil] at hr
      have := g2.2 hr
      refine unheard_eq g1 ?_
      simp [this, hr]
  | tx =>
    cases e
    exact ⟨⟨tx_good h.good, h.size⟩, ⟨_, [], flow h.good (tx_good h.good) rfl (by simp)⟩, rfl, rfl, rfl⟩

/-! ### The segment -/

variable {ι : Type} [DecidableEq ι] {p : Parts ι}

/-- The nodes: configurations without undefined behaviour, callbacks which call what is possible there, no loopback, the application does not take protocol events away from the framework, and
the adapter takes every event. -/
structure Proper (p : Parts ι) : Prop where
  cfg : ∀ i k, GoodCfg (p.ctx i k)
  cb : ∀ i k, CbOk (p.cb i k)
  lb : ∀ i k, (p.ctx i k).loopback = false
  proto : ∀ i k, (p.ctx i k).protoNotify = false
  tx : ∀ i k n, (p.ctx i k).txOk n = true

/-- The segment in any history. -/
structure Sound (p : Parts ι) (s : Segment ι) : Prop where
  fine : ∀ i, Fine (p.ctx i (s.life i)) (s.node i)
  inbox : ∀ i, ∀ b ∈ s.inbox i, Valid b

/-- The frame is on the way from node `i` to node `j` (or from another node). -/
def OnWay (s : Segment ι) (i j : ι) (b : BusFrame) : Prop := b ∈ waiting (s.node i).x.1 ∨ b ∈ s.inbox j ∨ b ∈ unheard (s.node j)

theorem act_eq {s s' : Segment ι} {i : ι} {mv : Driver.CanNode.Move} {rest : List BusFrame} (e : act p s i mv rest = .ok s') :
    ∃ n, Driver.CanNode.move (p.ctx i (s.life i)) (p.cb i (s.life i)) (p.around i (s.life i)) (s.node i) mv = .ok n ∧ s'.life = s.life ∧ s'.node i = n ∧ s'.inbox i = rest ∧
      ∀ j, j ≠ i → s'.node j = s.node j ∧ s'.inbox j = s.inbox j ++ n.x.2.wire.drop (s.node i).x.2.wire.length := by
  unfold act at e
  split at e
  · rename_i n hn
    cases e
    exact ⟨n, hn, rfl, if_pos rfl, if_pos rfl, fun j hj => ⟨if_neg hj, if_neg hj⟩⟩
  · cases e
  · cases e

/-- A move of a node in the segment. -/
structure Acted (p : Parts ι) (s s' : Segment ι) (i : ι) (mv : Driver.CanNode.Move) (t : List Out) : Prop where
  life : s'.life = s.life
  other : ∀ j, j ≠ i → s'.node j = s.node j ∧ ∀ b ∈ s.inbox j, b ∈ s'.inbox j
  out : (s'.node i).w.out = (s.node i).w.out ++ t
  waits : ∀ b ∈ waiting (s.node i).x.1, ∀ j, j ≠ i → OnWay s' i j b
  sends : ∀ m ∈ taken t, ∀ j, j ≠ i → OnWay s' i j (wireOf m)
  effect : Effect (p.ctx i (s.life i)) (p.cb i (s.life i)) (s.node i) (s'.node i) mv
  fine : ∀ j, Fine (p.ctx j (s'.life j)) (s'.node j)
  inbox : ∀ j, j ≠ i → ∀ b ∈ s'.inbox j, Valid b

theorem acted (hp : Proper p) {s s' : Segment ι} (h : Sound p s) {i : ι} {mv : Driver.CanNode.Move} (hm : Spec.CanNode.Ok mv) {rest : List BusFrame}
    (e : act p s i mv rest = .ok s') : s'.inbox i = rest ∧ ∃ t, Acted p s s' i mv t := by
  obtain ⟨n, hn, e1, e2, e3, e4⟩ := act_eq e
  obtain ⟨h1, ⟨q, t, hf⟩, h3⟩ := moved (hp.cfg i _) (hp.cb i _) _ (h.fine i) hm hn
  have hq : n.x.2.wire.drop (s.node i).x.2.wire.length = q := by rw [hf.wire, List.drop_left]
  have gone : ∀ b, b ∈ waiting (s.node i).x.1 ++ (taken t).map wireOf → ∀ j, j ≠ i → OnWay s' i j b := by
    intro b hb j hj
    rcases List.mem_append.1 (hf.perm.mem_iff.2 hb) with hb | hb
    · refine .inr (.inl ?_)
      rw [(e4 j hj).2, hq]
      exact List.mem_append_right _ hb
    · refine .inl ?_
      rw [e2]; exact hb
  refine ⟨e3, t, e1, fun j hj => ⟨(e4 j hj).1, fun b hb => by rw [(e4 j hj).2]; exact List.mem_append_left _ hb⟩, by rw [e2]; exact hf.out,
    fun b hb => gone b (List.mem_append_left _ hb), fun m hm => gone _ (List.mem_append_right _ (List.mem_map_of_mem hm)), by rw [e2]; exact h3, fun j => ?_, fun j hj b hb => ?_⟩
  · rw [e1]
    by_cases hj : j = i
    · subst hj; rw [e2]; exact h1
    · rw [(e4 j hj).1]; exact h.fine j
  · rw [(e4 j hj).2, hq] at hb
    rcases List.mem_append.1 hb with hb | hb
    · exact h.inbox j b hb
    · refine h1.valid (List.mem_append_left _ ?_)
      rw [hf.wire]
      exact List.mem_append_right _ hb

/-- What a node which uses the nickname `q`, or wants to, says to the others: a probe or announcement, or the answer to one. -/
def Says (b : BusFrame) (q : U8) : Prop :=
  (∃ prio hard nick, prio.toNat < 8 ∧ b = protocol prio hard 2 nick [q]) ∨ ∃ prio hard, prio.toNat < 8 ∧ b = protocol prio hard 3 q []

theorem carries_probe {prio nick q : U8} {hard : Bool} (hp : prio.toNat < 8) {m : Msg} (h : Carries (protocol prio hard 2 nick [q]) m) : IsProbe m q := by
  have := carries_protocol hp (by simp) h
  exact ⟨this.cls, this.typ, this.size, this.at 0 (by simp) (by simp)⟩

theorem carries_ack {prio q : U8} {hard : Bool} (hp : prio.toNat < 8) {m : Msg} (h : Carries (protocol prio hard 3 q []) m) : IsAck m q := by
  have hr := carries_protocol hp (by simp) h
  refine ⟨hr.cls, hr.typ, hr.size, BitVec.eq_of_toNat_eq ?_⟩
  have e : Drv.canId m = prio.toNat * 2 ^ 26 + hard.toNat * 2 ^ 25 + (3 : U8).toNat * 2 ^ 8 + q.toNat := h.1
  unfold Drv.canId at e
  have h7 := m.oAddr.isLt
  have h8 := q.isLt
  omega

theorem says_probe (c : Ctx) {nick q prio : U8} (hp : prio.toNat < 8) : Says (wireOf (event c nick prio 2 [q])) q :=
  .inl ⟨prio, c.hardCoded, nick, hp, wireOf_event c nick prio 2 hp [q] (by simp)⟩

theorem says_ack (c : Ctx) {q prio : U8} (hp : prio.toNat < 8) : Says (wireOf (event c q prio 3 [])) q :=
  .inr ⟨prio, c.hardCoded, hp, wireOf_event c q prio 3 hp [] (by simp)⟩

/-- Two nodes which use the same nickname are going to notice it. -/
def Notices (s : Segment ι) (i j : ι) (q : U8) : Prop := ∃ b, Says b q ∧ (OnWay s i j b ∨ OnWay s j i b)

omit [DecidableEq ι] in
theorem Notices.symm {s : Segment ι} {i j : ι} {q : U8} (h : Notices s i j q) : Notices s j i q := by
  obtain ⟨b, h1, h2⟩ := h
  exact ⟨b, h1, h2.symm⟩

theorem mem_taken {t : List Out} {m : Msg} (h : .tx m true ∈ t) : m ∈ taken t := List.mem_filterMap.2 ⟨_, h, rfl⟩

/-- The move of one of the two nodes. -/
theorem notices_act (hp : Proper p) {s s' : Segment ι} {i j : ι} {mv : Driver.CanNode.Move} {t : List Out} (h : Acted p s s' i mv t) (hj : j ≠ i)
    (hin : ∀ b ∈ s.inbox i, b ∈ s'.inbox i ∨ b ∈ unheard (s'.node i)) {q : U8} (hq : q ≠ 0xFF)
    (hset : mv = .cycle → (s.node i).w.v.st = .active → ∀ m ∈ (s'.node i).heard.drop (s.node i).heard.length, ¬(m.cls = 0 ∧ m.typ = 6))
    (hi : uses (s'.node i).w q) (hn : uses (s.node i).w q → Notices s i j q) : Notices s' i j q := by
  have hok := hp.tx i (s.life i)
  have heff := h.effect
  have new : ∀ {m : Msg} {t' : List Out}, (s'.node i).w.out = (s.node i).w.out ++ t' → .tx m true ∈ t' → OnWay s' i j (wireOf m) := by
    intro m t' ht hm
    have : t = t' := List.append_cancel_left (h.out.symm.trans ht)
    subst this
    exact h.sends m (mem_taken hm) j hj
  by_cases ha : (s.node i).w.v.st = .active
  · have hk : Keeps (s.node i).w.v.nick (s'.node i).w := by
      cases mv with
      | cycle =>
        obtain ⟨m, e1, e2, -⟩ := heff
        rw [e1]
        refine cycle_keeps (hp.cb i _) (hp.lb i _) (hp.proto i _) ha fun m' hm => ?_
        subst hm
        refine hset rfl ha m' ?_
        rw [e2, List.drop_left]
        simp
      | call op => rw [heff.1]; exact Keeps.op heff.2.1 _
      | rx b => rw [heff.1]; exact fun _ => .inl rfl
      | tx => rw [heff.1]; exact fun _ => .inl rfl
    have hnick : (s.node i).w.v.nick = q := by
      rcases hk hi.1 with h | h
      · exact h.symm.trans hi.2
      · exact absurd (hi.2.symm.trans h) hq
    obtain ⟨b, hb, hw | hw⟩ := hn ⟨ha, hnick⟩
    · refine ⟨b, hb, .inl ?_⟩
      rcases hw with hw | hw | hw
      · exact h.waits b hw j hj
      · exact .inr (.inl ((h.other j hj).2 b hw))
      · exact .inr (.inr (by rw [(h.other j hj).1]; exact hw))
    · rcases hw with hw | hw | hw
      · exact ⟨b, hb, .inr (.inl (by rw [(h.other j hj).1]; exact hw))⟩
      · exact ⟨b, hb, .inr (.inr (hin b hw))⟩
      · cases mv with
        | cycle =>
          obtain ⟨m, e1, e2, -, ⟨-, e3⟩ | ⟨m', b', e3, e4, e5⟩⟩ := heff
          · rw [e3] at hw; cases hw
          · subst e3
            rw [e4] at hw
            cases List.mem_singleton.1 hw
            rcases hb with ⟨prio, hard, nick, h8, rfl⟩ | ⟨prio, hard, h8, rfl⟩
            · obtain ⟨t', ht, hm⟩ := cycle_answers (hp.cb i _) (hp.lb i _) (hp.proto i _) hok ⟨ha, hnick⟩ (carries_probe h8 e5)
              exact ⟨_, says_ack _ (by decide), .inl (new (by rw [e1]; exact ht) hm)⟩
            · have := cycle_leaves (hp.cb i (s.life i)) (hp.lb i (s.life i)) (hp.proto i (s.life i)) ⟨ha, hnick⟩ (carries_ack h8 e5)
              rw [← e1] at this
              exact absurd hi.1 this
        | call op => exact ⟨b, hb, .inr (.inr (.inr (by rw [heff.2.2.2]; exact hw)))⟩
        | rx b' => exact ⟨b, hb, .inr (.inr (.inr (heff.2.2.1 b hw)))⟩
        | tx => exact ⟨b, hb, .inr (.inr (.inr (by rw [heff.2.2]; exact hw)))⟩
  · cases mv with
    | cycle =>
      obtain ⟨m, e1, -⟩ := heff
      have e : (s'.node i).w = (Core.process (p.ctx i (s.life i)) m (s.node i).w).2 := by
        rw [e1]; exact Speech.inactive_processC ha
      obtain ⟨t', ht, hm⟩ := cycle_announces hok ha (e ▸ hi.1)
      rw [← e] at ht hm
      rw [hi.2] at hm
      exact ⟨_, says_probe _ (by decide), .inl (new ht hm)⟩
    | call op =>
      have := op_notActive (c := p.ctx i (s.life i)) heff.2.1 ha
      rw [← heff.1] at this
      exact absurd hi.1 this
    | rx b => rw [heff.1] at hi; exact absurd hi.1 ha
    | tx => rw [heff.1] at hi; exact absurd hi.1 ha

theorem boot_fine {c : Ctx} (hc : GoodCfg c) (cb : Callbacks) (ok : Tmr → Bool) (ps : Nat → U8) (s : Driver.CanDrv.State) : Fine c (boot c cb ok ps s) := by
  refine ⟨boot_good hc cb ok ps s, fun m hm => ?_⟩
  have e : (boot c cb ok ps s).w = (Core.init c ok (powerUp ps)).2 := rfl
  obtain ⟨t, t1, t2⟩ := (Foot.coreInit (c := c) (bad := False) ok (powerUp ps)).quiet (by decide) (by simp)
  rw [e, t1, show (powerUp ps).out = [] from rfl, List.nil_append, frames_taken t2] at hm
  cases hm

theorem boot_waiting (c : Ctx) (cb : Callbacks) (ok : Tmr → Bool) (ps : Nat → U8) (s : Driver.CanDrv.State) : waiting (boot c cb ok ps s).x.1 = [] := by
  show waiting (Driver.CanDrv.start s).1 = []
  have h := (inv_start s).count
  have e1 : (Driver.CanDrv.start s).2.taken.length = 0 := rfl
  rw [e1] at h
  generalize waiting (Driver.CanDrv.start s).1 = l at h
  exact List.length_eq_zero_iff.1 (by omega)

theorem boot_unheard (c : Ctx) (cb : Callbacks) (ok : Tmr → Bool) (ps : Nat → U8) (s : Driver.CanDrv.State) : unheard (boot c cb ok ps s) = [] := rfl

theorem boot_not (c : Ctx) (cb : Callbacks) (ok : Tmr → Bool) (ps : Nat → U8) (s : Driver.CanDrv.State) {q : U8} : ¬uses (boot c cb ok ps s).w q := by
  intro h
  have := h.1
  rw [show (boot c cb ok ps s).w = (Core.init c ok (powerUp ps)).2 from rfl] at this
  rcases Discovery.init_st c ok (powerUp ps) with h | h <;> rw [h] at this <;> cases this

theorem boot_idle (c : Ctx) (cb : Callbacks) (ok : Tmr → Bool) (ps : Nat → U8) (s : Driver.CanDrv.State) {q : U8} : ¬awaits (boot c cb ok ps s).w q := by
  intro h
  have := h.1
  rw [show (boot c cb ok ps s).w = (Core.init c ok (powerUp ps)).2 from rfl] at this
  rcases Discovery.init_st c ok (powerUp ps) with h | h <;> rw [h] at this <;> cases this

theorem sound_start (hp : Proper p) (ok : ι → Tmr → Bool) (ps : ι → Nat → U8) (ctl : ι → Driver.CanDrv.State) : Sound p (start p ok ps ctl) where
  fine := fun i => boot_fine (hp.cfg i 0) _ _ _ _
  inbox := fun i b hb => by cases hb

/-- A move of the segment: a node moves, and its frames which were on the way to it still are, or it has got them; or a node is switched on. -/
inductive Stepped (p : Parts ι) (s s' : Segment ι) : Move ι → Prop
  | act {mv : Move ι} (i : ι) (cmv : Driver.CanNode.Move) (t : List Out) (hmv : cmv = .cycle → mv = .own i .cycle) (h : Acted p s s' i cmv t)
      (hin : ∀ b ∈ s.inbox i, b ∈ s'.inbox i ∨ b ∈ unheard (s'.node i)) : Stepped p s s' mv
  | none {mv : Move ι} (h : s' = s) : Stepped p s s' mv
  | power {mv : Move ι} (i : ι) (h : ∀ q, ¬uses (s'.node i).w q) (h' : ∀ q, ¬awaits (s'.node i).w q) (ho : ∀ j, j ≠ i → s'.node j = s.node j ∧ s'.inbox j = s.inbox j)
      (hl : s'.life i = s.life i + 1) : Stepped p s s' mv

theorem stepped (hp : Proper p) {s s' : Segment ι} (h : Sound p s) {mv : Move ι} (hm : CanSegment.Ok mv) (hu : ∀ i, mv = .deliver i → unheard (s.node i) = [])
    (e : step p s mv = .ok s') : Sound p s' ∧ Stepped p s s' mv := by
  cases mv with
  | own i cmv =>
    obtain ⟨e1, t, ha⟩ := acted hp h (mv := cmv) hm e
    have hin : ∀ b ∈ s.inbox i, b ∈ s'.inbox i ∨ b ∈ unheard (s'.node i) := fun b hb => .inl (by rw [e1]; exact hb)
    refine ⟨⟨ha.fine, fun j b hb => ?_⟩, .act i cmv t (fun h => by rw [h]) ha hin⟩
    by_cases hji : j = i
    · subst hji; rw [e1] at hb; exact h.inbox j b hb
    · exact ha.inbox j hji b hb
  | deliver i =>
    simp only [step] at e
    cases hb : s.inbox i with
    | nil =>
      rw [hb] at e
      cases e
      exact ⟨h, .none rfl⟩
    | cons b l =>
      rw [hb] at e
      have hv : Valid b := h.inbox i b (by rw [hb]; exact List.mem_cons_self ..)
      obtain ⟨e1, t, ha⟩ := acted hp h (mv := .rx b) hv e
      have hun : unheard (s'.node i) = [b] := ha.effect.2.2.2 (hu i rfl)
      have hin : ∀ b ∈ s.inbox i, b ∈ s'.inbox i ∨ b ∈ unheard (s'.node i) := by
        intro b' hb'
        rw [hb] at hb'
        rw [e1, hun]
        rcases List.mem_cons.1 hb' with rfl | hb'
        · exact .inr (List.mem_singleton_self _)
        · exact .inl hb'
      refine ⟨⟨ha.fine, fun j b' hb' => ?_⟩, .act i (.rx b) t (fun h => by cases h) ha hin⟩
      by_cases hji : j = i
      · subst hji
        rw [e1] at hb'
        exact h.inbox j b' (by rw [hb]; exact List.mem_cons_of_mem _ hb')
      · exact ha.inbox j hji b' hb'
  | power i ok ps ctl =>
    cases e
    refine ⟨⟨fun j => ?_, fun j b hb => ?_⟩, .power i (fun q => ?_) (fun q => ?_) (fun j hj => ⟨if_neg hj, if_neg hj⟩) (if_pos rfl)⟩
    · dsimp only
      by_cases hj : j = i
      · subst hj
        rw [if_pos rfl, if_pos rfl]
        exact boot_fine (hp.cfg j _) _ _ _ _
      · rw [if_neg hj, if_neg hj]
        exact h.fine j
    · dsimp only at hb
      by_cases hj : j = i
      · rw [if_pos hj] at hb; cases hb
      · rw [if_neg hj] at hb; exact h.inbox j b hb
    · dsimp only
      rw [if_pos rfl]
      exact boot_not _ _ _ _ _
    · dsimp only
      rw [if_pos rfl]
      exact boot_idle _ _ _ _ _

omit [DecidableEq ι] in
theorem all_heard {s : Segment ι} {i : ι} (h : (s.node i).x.2.stored.length = (s.node i).heard.length) : unheard (s.node i) = [] := by
  unfold unheard
  exact List.drop_eq_nil_of_le (by rw [h]; exact Nat.le_refl _)

theorem heard_all {c : Ctx} {n : Node} (h : Good c n) (hu : unheard n = []) : n.x.2.stored.length = n.heard.length := by
  obtain ⟨r, hr, -⟩ := unheard_cases h
  rw [unheard_eq h hr] at hu
  rw [hu, List.append_nil] at hr
  rw [hr, List.length_map, h.len]

theorem paced_tail {s s1 : Segment ι} {mv : Move ι} {l : List (Move ι)} (e : step p s mv = .ok s1) (h : Paced p s (mv :: l)) : Paced p s1 l := by
  intro pre i post s2 hl hr
  refine h (mv :: pre) i post s2 (by rw [hl]; rfl) ?_
  show (match step p s mv with | .ok s => run p pre s | .ub => .ub | .impossible => .impossible) = _
  rw [e]
  exact hr

theorem paced_head {s : Segment ι} {mv : Move ι} {l : List (Move ι)} (h : Paced p s (mv :: l)) : ∀ i, mv = .deliver i → unheard (s.node i) = [] := by
  rintro i rfl
  exact all_heard (h [] i l s rfl rfl)

/-- Nodes which are silent since their last cycle have heard everything. -/
theorem inTurn_step (hp : Proper p) {s s' : Segment ι} (hs : Sound p s) {u : ι → Bool} (h : ∀ j, u j = false → unheard (s.node j) = []) {mv : Move ι} (hm : CanSegment.Ok mv)
    (e : step p s mv = .ok s') : ∀ j, next u mv j = false → unheard (s'.node j) = [] := by
  intro j hj
  cases mv with
  | own i cmv =>
    obtain ⟨e1, t, ha⟩ := acted hp hs (mv := cmv) hm e
    by_cases hji : j = i
    · subst hji
      have heff := ha.effect
      cases cmv with
      | cycle => obtain ⟨m, -, -, h3, -⟩ := heff; exact h3
      | call op => rw [heff.2.2.2]; exact h j hj
      | rx b => simp [next] at hj
      | tx => rw [heff.2.2]; exact h j hj
    · rw [(ha.other j hji).1]
      refine h j ?_
      cases cmv <;> simp only [next, if_neg hji] at hj <;> exact hj
  | deliver i =>
    have hji : j ≠ i := fun hji => by simp [next, hji] at hj
    have hj' : u j = false := by simpa only [next, if_neg hji] using hj
    simp only [step] at e
    cases hb : s.inbox i with
    | nil => rw [hb] at e; cases e; exact h j hj'
    | cons b l =>
      rw [hb] at e
      obtain ⟨e1, t, ha⟩ := acted hp hs (mv := .rx b) (hs.inbox i b (by rw [hb]; exact List.mem_cons_self ..)) e
      rw [(ha.other j hji).1]
      exact h j hj'
  | power i ok ps ctl =>
    cases e
    dsimp only
    by_cases hji : j = i
    · rw [if_pos hji]; rfl
    · rw [if_neg hji]
      refine h j ?_
      simpa only [next, if_neg hji] using hj

theorem paced_inTurn (hp : Proper p) : ∀ (l : List (Move ι)) (s : Segment ι) (u : ι → Bool), Sound p s → (∀ j, u j = false → unheard (s.node j) = []) → (∀ mv ∈ l, CanSegment.Ok mv) →
    InTurn u l → Paced p s l
  | [], _, _, _, _, _, _ => by intro pre i post s1 e; simp at e
  | mv :: l, s, u, hs, hu, hl, ht => by
    intro pre i post s1 e hr
    cases pre with
    | nil =>
      simp only [List.nil_append, List.cons.injEq] at e
      cases hr
      exact heard_all (hs.fine i).good (hu i (ht.1 i e.1))
    | cons y pre =>
      simp only [List.cons_append, List.cons.injEq] at e
      obtain ⟨rfl, e⟩ := e
      unfold run at hr
      cases hst : step p s mv with
      | ok s2 =>
        rw [hst] at hr
        have hm := hl mv (List.mem_cons_self ..)
        exact paced_inTurn hp l s2 _ (stepped hp hs hm (fun i e => hu i (ht.1 i e)) hst).1 (inTurn_step hp hs hu hm hst) (fun mv h => hl mv (List.mem_cons_of_mem _ h)) ht.2 pre i post s1 e hr
      | ub => rw [hst] at hr; cases hr
      | impossible => rw [hst] at hr; cases hr

theorem unassigned_tail {s s1 : Segment ι} {mv : Move ι} {l : List (Move ι)} (e : step p s mv = .ok s1) (h : Unassigned p s (mv :: l)) : Unassigned p s1 l := by
  intro pre i post s2 s3 hl hr
  refine h (mv :: pre) i post s2 s3 (by rw [hl]; rfl) ?_
  show (match step p s mv with | .ok s => run p pre s | .ub => .ub | .impossible => .impossible) = _
  rw [e]
  exact hr

theorem notices_step (hp : Proper p) {s s' : Segment ι} {mv : Move ι} (hs : Stepped p s s' mv)
    (hset : ∀ i, mv = .own i .cycle → (s.node i).w.v.st = .active → ∀ m ∈ (s'.node i).heard.drop (s.node i).heard.length, ¬(m.cls = 0 ∧ m.typ = 6))
    (h : ∀ i j q, i ≠ j → q ≠ 0xFF → uses (s.node i).w q → uses (s.node j).w q → Notices s i j q) (i j : ι) (q : U8) (hij : i ≠ j) (hq : q ≠ 0xFF)
    (hui : uses (s'.node i).w q) (huj : uses (s'.node j).w q) : Notices s' i j q := by
  cases hs with
  | none e => subst e; exact h i j q hij hq hui huj
  | power k hk _ ho =>
    have hi : i ≠ k := fun e => by subst e; exact hk q hui
    have hj : j ≠ k := fun e => by subst e; exact hk q huj
    rw [(ho i hi).1] at hui
    rw [(ho j hj).1] at huj
    have := h i j q hij hq hui huj
    unfold Notices OnWay at this ⊢
    rw [(ho i hi).1, (ho j hj).1, (ho i hi).2, (ho j hj).2]
    exact this
  | act k cmv t hmv ha hin =>
    by_cases hi : i = k
    · subst hi
      have hj : j ≠ i := fun e => hij e.symm
      rw [(ha.other j hj).1] at huj
      exact notices_act hp ha hj hin hq (fun e => hset i (hmv e)) hui fun hu => h i j q hij hq hu huj
    · by_cases hj : j = k
      · subst hj
        rw [(ha.other i hi).1] at hui
        exact (notices_act hp ha hi hin hq (fun e => hset j (hmv e)) huj fun hu => h j i q (Ne.symm hij) hq hu hui).symm
      · rw [(ha.other i hi).1] at hui
        rw [(ha.other j hj).1] at huj
        obtain ⟨b, hb, hw⟩ := h i j q hij hq hui huj
        unfold Notices OnWay
        rw [(ha.other i hi).1, (ha.other j hj).1]
        refine ⟨b, hb, ?_⟩
        rcases hw with (hw | hw | hw) | (hw | hw | hw)
        · exact .inl (.inl hw)
        · exact .inl (.inr (.inl ((ha.other j hj).2 b hw)))
        · exact .inl (.inr (.inr hw))
        · exact .inr (.inl hw)
        · exact .inr (.inr (.inl ((ha.other i hi).2 b hw)))
        · exact .inr (.inr (.inr hw))

theorem notices_run (hp : Proper p) : ∀ (l : List (Move ι)) (s s' : Segment ι), Sound p s → (∀ mv ∈ l, CanSegment.Ok mv) → Paced p s l → Unassigned p s l →
    (∀ i j q, i ≠ j → q ≠ 0xFF → uses (s.node i).w q → uses (s.node j).w q → Notices s i j q) → run p l s = .ok s' →
    Sound p s' ∧ ∀ i j q, i ≠ j → q ≠ 0xFF → uses (s'.node i).w q → uses (s'.node j).w q → Notices s' i j q
  | [], s, s', hs, _, _, _, h, e => by cases e; exact ⟨hs, h⟩
  | mv :: l, s, s', hs, hl, hpc, hset, h, e => by
    unfold run at e
    cases hst : step p s mv with
    | ok s1 =>
      rw [hst] at e
      obtain ⟨h1, h2⟩ := stepped hp hs (hl mv (List.mem_cons_self ..)) (paced_head hpc) hst
      refine notices_run hp l s1 s' h1 (fun mv h => hl mv (List.mem_cons_of_mem _ h)) (paced_tail hst hpc) (unassigned_tail hst hset) ?_ e
      exact notices_step hp h2 (fun i e => hset [] i l s s1 (by rw [e]; rfl) rfl (by rw [← e]; exact hst)) h
    | ub => rw [hst] at e; cases e
    | impossible => rw [hst] at e; cases e

omit [DecidableEq ι] in
theorem silent_none {s : Segment ι} (hs : Sound p s) {i j : ι} (hi : Silent s i) (hj : Silent s j) {b : BusFrame} : ¬OnWay s i j b := by
  rintro (h | h | h)
  · have hc := (hs.fine i).good.sends.inv.count
    have ht := congrArg List.length (hs.fine i).good.sends.taken
    simp only [List.length_map] at ht
    have := hi.2.2
    have h0 : waiting (s.node i).x.1 = [] := List.length_eq_zero_iff.1 (by omega)
    rw [h0] at h; cases h
  · rw [hj.1] at h; cases h
  · unfold unheard at h
    rw [List.drop_eq_nil_of_le (by rw [hj.2.1]; exact Nat.le_refl _)] at h
    cases h

/-- C122: the condition of the theorems below about the pace is met if every node runs its framework before its controller sees the next frame of another node. -/
theorem C122_in_turn (hp : Proper p) (ok : ι → Tmr → Bool) (ps : ι → Nat → U8) (ctl : ι → Driver.CanDrv.State) (l : List (Move ι)) (hl : ∀ mv ∈ l, CanSegment.Ok mv)
    (ht : InTurn (fun _ => false) l) : Paced p (start p ok ps ctl) l :=
  paced_inTurn hp l _ _ (sound_start hp ok ps ctl) (fun _ _ => rfl) hl ht

/-- C122: nodes on a CAN bus — framework, transport adapter, CAN driver and controller of each — whatever the nodes, their applications (also in callbacks) and other participants do and whenever,
and however often nodes are switched off and on again with any memory, in which the controller of every node sees the next frame of another node when the framework has heard those before (as if it runs
in between, see `C122_in_turn`), and no active node hears that it is to use another nickname: two active nodes which have heard everything and have sent everything do not have the same nickname, except 0xFF (see C71). -/
theorem C122_no_duplicates (hp : Proper p) (ok : ι → Tmr → Bool) (ps : ι → Nat → U8) (ctl : ι → Driver.CanDrv.State) (l : List (Move ι)) (hl : ∀ mv ∈ l, CanSegment.Ok mv)
    (hpc : Paced p (start p ok ps ctl) l) (hset : Unassigned p (start p ok ps ctl) l) {s : Segment ι} (e : run p l (start p ok ps ctl) = .ok s) {i j : ι} (hij : i ≠ j)
    (hi : Silent s i) (hj : Silent s j) {q : U8} (hui : uses (s.node i).w q) (huj : uses (s.node j).w q) : q = 0xFF := by
  by_cases hq : q = 0xFF
  · exact hq
  obtain ⟨hs, h⟩ := notices_run hp l _ _ (sound_start hp ok ps ctl) hl hpc hset (fun i j q _ _ h _ => absurd h (boot_not _ _ _ _ _)) e
  obtain ⟨b, -, hb | hb⟩ := h i j q hij hq hui huj
  · exact absurd hb (silent_none hs hi hj)
  · exact absurd hb (silent_none hs hj hi)

/-! ### Nobody tells a node to use another nickname -/

theorem arith_prio (k : Nat) : k % 2 ^ 32 * 2 ^ 26 % 2 ^ 32 / 2 ^ 8 % 2 ^ 17 = 0 := by omega
theorem arith_hard (k : Nat) (h : k ≤ 1) : k * 2 ^ 25 % 2 ^ 32 / 2 ^ 8 % 2 ^ 17 = 0 := by omega
theorem arith_class (k : Nat) : k % 2 ^ 32 * 2 ^ 16 % 2 ^ 32 / 2 ^ 8 % 2 ^ 17 = k % 512 * 2 ^ 8 := by omega
theorem arith_type (k : Nat) (h : k < 2 ^ 8) : k % 2 ^ 32 * 2 ^ 8 % 2 ^ 32 / 2 ^ 8 % 2 ^ 17 = k := by omega
theorem arith_addr (k : Nat) (h : k < 2 ^ 8) : k % 2 ^ 32 / 2 ^ 8 % 2 ^ 17 = 0 := by omega

/-- Class and type in the identifier. -/
theorem wireOf_class (m : Msg) : (wireOf m).id / 2 ^ 8 % 2 ^ 17 = m.cls.toNat % 512 * 2 ^ 8 + m.typ.toNat := by
  show (Can.packId m).toNat % 2 ^ 29 / 2 ^ 8 % 2 ^ 17 = _
  have h1 : (Can.packId m).toNat % 2 ^ 29 / 2 ^ 8 % 2 ^ 17 = ((Can.packId m).toNat >>> 8) % 2 ^ 17 := by
    rw [Nat.shiftRight_eq_div_pow]; omega
  rw [h1]
  unfold Can.packId
  simp only [BitVec.toNat_or, BitVec.toNat_shiftLeft, BitVec.toNat_setWidth, Nat.shiftRight_or_distrib, Nat.or_mod_two_pow]
  simp only [Nat.shiftLeft_eq, Nat.shiftRight_eq_div_pow]
  have ht := m.typ.isLt
  have ho := m.oAddr.isLt
  have hh : (if m.hard then 1 else 0 : U32).toNat ≤ 1 := by cases m.hard <;> decide
  rw [arith_prio, arith_hard _ hh, arith_class, arith_type _ ht, arith_addr _ ho]
  simp only [Nat.zero_or, Nat.or_zero]
  exact CanProps.or_disj _ _ 8 ht

theorem ordinary_wire {m : Msg} (h : Ordinary m) : ¬Assigns (wireOf m) := by
  unfold Assigns
  rw [wireOf_class]
  intro e
  have := m.typ.isLt
  have h1 := h.1
  exact h.2 ⟨BitVec.eq_of_toNat_eq (by show m.cls.toNat = 0; omega), BitVec.eq_of_toNat_eq (by show m.typ.toNat = 6; omega)⟩

theorem carries_ordinary {b : BusFrame} {m : Msg} (hb : ¬Assigns b) (h : Carries b m) : ¬(m.cls = 0 ∧ m.typ = 6) := by
  rintro ⟨h1, h2⟩
  refine hb ?_
  unfold Assigns
  rw [← h.1]
  unfold Drv.canId
  rw [h1, h2]
  have := m.oAddr.isLt
  have e0 : (0 : U16).toNat = 0 := rfl
  have e6 : (6 : U8).toNat = 6 := rfl
  cases m.hard <;> simp only [Bool.toNat_true, Bool.toNat_false] <;> omega

theorem of_class {m : Msg} {k : U16} (h : m.cls = k) (hk : k.toNat < 512) (h0 : k = 0 → m.typ ≠ 6) : Ordinary m :=
  ⟨h ▸ hk, fun h' => h0 (h.symm.trans h'.1) h'.2⟩

theorem answers_type {a b : U8} (h : (a, b) ∈ answers) : b ≠ 6 := by
  have : ∀ x ∈ answers, x.2 ≠ 6 := by decide
  exact this _ h

theorem reason_ordinary {c : Ctx} {rx : Option Msg} {w : W} {f : Msg} (h : Reason c rx w f) : Ordinary f := by
  cases h with
  | answer m _ _ _ hf ht => exact of_class hf (by decide) fun _ => answers_type ht
  | stream _ _ hf ht => exact of_class hf (by decide) fun _ => by rw [ht]; decide
  | heartbeat _ _ _ _ _ hf => exact of_class hf.1 (by decide) fun h => absurd h (by decide)
  | probeMaster _ _ hf => exact of_class (k := 0) (by rw [hf]; rfl) (by decide) fun _ => by rw [hf]; show (2 : U8) ≠ 6; decide
  | probe _ _ hf => exact of_class (k := 0) (by rw [hf]; rfl) (by decide) fun _ => by rw [hf]; show (2 : U8) ≠ 6; decide
  | online _ _ hf => exact of_class (k := 0) (by rw [hf]; rfl) (by decide) fun _ => by rw [hf]; show (2 : U8) ≠ 6; decide
  | accepted _ _ _ _ _ _ hf => exact of_class (k := 0) (by rw [hf]; rfl) (by decide) fun _ => by rw [hf]; show (7 : U8) ≠ 6; decide

theorem reasonC_ordinary {c : Ctx} {cb : Callbacks} (hA : ∀ m, Vscp.Sends cb m → Ordinary m) {rx : Option Msg} {w : W} {e : List Out} {f : Msg} (h : ReasonC c cb rx w e f) : Ordinary f := by
  cases h with
  | app x _ h => exact hA f ⟨x, h⟩
  | log _ _ _ hf => exact of_class hf.1 (by decide) fun h => absurd h (by decide)
  | answer m _ _ _ hf ht => exact of_class hf (by decide) fun _ => answers_type ht
  | stream _ _ hf ht => exact of_class hf (by decide) fun _ => by rw [ht]; decide
  | heartbeat _ _ _ _ _ hf => exact of_class hf.1 (by decide) fun h => absurd h (by decide)
  | other _ r => exact reason_ordinary r

/-- No frame on the way tells a node to use another nickname. -/
structure Modesty (s : Segment ι) : Prop where
  inbox : ∀ i, ∀ b ∈ s.inbox i, ¬Assigns b
  unheard : ∀ i, ∀ b ∈ unheard (s.node i), ¬Assigns b
  waiting : ∀ i, ∀ b ∈ waiting (s.node i).x.1, ¬Assigns b

theorem mem_of_taken {t : List Out} {m : Msg} (h : m ∈ taken t) : .tx m true ∈ t := by
  unfold taken at h
  rw [List.mem_filterMap] at h
  obtain ⟨o, ho, e⟩ := h
  cases o with
  | tx m' r => cases r <;> simp at e; rw [← e]; exact ho
  | _ => simp at e

theorem unheard_rx {c : Ctx} {cb : Callbacks} {a : Around} {n n' : Node} {b : BusFrame} (e : Driver.CanNode.move c cb a n (.rx b) = .ok n') :
    ∀ b' ∈ unheard n', b' ∈ unheard n ∨ b' = b := by
  cases e
  intro b' hb
  unfold unheard at hb ⊢
  dsimp only at hb
  split at hb
  · rw [List.drop_append] at hb
    rcases List.mem_append.1 hb with hb | hb
    · exact .inl hb
    · exact .inr (List.mem_singleton.1 (List.mem_of_mem_drop hb))
  · exact .inl hb

theorem modest_act (hp : Proper p) (hA : ∀ i k m, Vscp.Sends (p.cb i k) m → Ordinary m) {s s' : Segment ι} (hs : Sound p s) (h : Modesty s) {i : ι} {mv : Driver.CanNode.Move}
    (hm : Spec.CanNode.Ok mv) (hmo : Modest (.own i mv)) {rest : List BusFrame} (hr : ∀ b ∈ rest, ¬Assigns b) (e : act p s i mv rest = .ok s') :
    Modesty s' ∧ (mv = .cycle → ∀ m ∈ (s'.node i).heard.drop (s.node i).heard.length, ¬(m.cls = 0 ∧ m.typ = 6)) := by
  obtain ⟨n, hn, e1, e2, e3, e4⟩ := act_eq e
  obtain ⟨-, ⟨q, t, hf⟩, heff⟩ := moved (hp.cfg i _) (hp.cb i _) _ (hs.fine i) hm hn
  have hq : n.x.2.wire.drop (s.node i).x.2.wire.length = q := by rw [hf.wire, List.drop_left]
  have hto : ∀ m ∈ taken t, Ordinary m := by
    intro m hmt
    have hmt := mem_of_taken hmt
    have same : n.w.out = (s.node i).w.out → False := by
      intro h
      rw [hf.out] at h
      have : t = [] := by simpa using h
      rw [this] at hmt
      cases hmt
    cases mv with
    | cycle =>
      obtain ⟨m', h1, -⟩ := heff
      exact reasonC_ordinary (hA i _) (Speech.C118_callbacks (hp.cb i _) (op := .process m') (by rw [← h1]; exact hf.out) hmt)
    | call op =>
      have := Speech.C118_calls (c := p.ctx i (s.life i)) (op := op) (w := (s.node i).w) (by rw [← heff.1]; exact hf.out) hmt
      cases op with
      | process rx => exact absurd rfl (heff.2.1 rx)
      | sendEvent m' => rw [show m = m' from this]; exact hmo
      | log _ _ _ => exact of_class this.1 (by decide) fun h => absurd h (by decide)
      | logUInt32 _ _ _ => exact of_class this.1 (by decide) fun h => absurd h (by decide)
      | _ => exact this.elim
    | rx b => exact (same (by rw [heff.1])).elim
    | tx => exact (same (by rw [heff.1])).elim
  have gone : ∀ b ∈ q ++ waiting n.x.1, ¬Assigns b := by
    intro b hb
    rcases List.mem_append.1 (hf.perm.mem_iff.1 hb) with hb | hb
    · exact h.waiting i b hb
    · obtain ⟨m, hm, rfl⟩ := List.mem_map.1 hb
      exact ordinary_wire (hto m hm)
  refine ⟨⟨fun j b hb => ?_, fun j b hb => ?_, fun j b hb => ?_⟩, fun hc m hmm => ?_⟩
  · by_cases hj : j = i
    · subst hj; rw [e3] at hb; exact hr b hb
    · rw [(e4 j hj).2, hq] at hb
      rcases List.mem_append.1 hb with hb | hb
      · exact h.inbox j b hb
      · exact gone b (List.mem_append_left _ hb)
  · by_cases hj : j = i
    · subst hj
      rw [e2] at hb
      cases mv with
      | cycle => obtain ⟨m, -, -, h3, -⟩ := heff; rw [h3] at hb; cases hb
      | call op => rw [heff.2.2.2] at hb; exact h.unheard j b hb
      | rx b' =>
        rcases unheard_rx hn b hb with hb | rfl
        · exact h.unheard j b hb
        · exact hmo
      | tx => rw [heff.2.2] at hb; exact h.unheard j b hb
    · rw [(e4 j hj).1] at hb; exact h.unheard j b hb
  · by_cases hj : j = i
    · subst hj; rw [e2] at hb; exact gone b (List.mem_append_right _ hb)
    · rw [(e4 j hj).1] at hb; exact h.waiting j b hb
  · subst hc
    obtain ⟨m0, -, h2, -, h3⟩ := heff
    rw [e2, h2, List.drop_left] at hmm
    rcases h3 with ⟨rfl, -⟩ | ⟨m', b, rfl, h4, h5⟩
    · cases hmm
    · cases List.mem_singleton.1 hmm
      exact carries_ordinary (h.unheard i b (by rw [h4]; exact List.mem_singleton_self _)) h5

theorem sound_step (hp : Proper p) {s s' : Segment ι} (h : Sound p s) {mv : Move ι} (hm : CanSegment.Ok mv) (e : step p s mv = .ok s') : Sound p s' := by
  have act : ∀ {i : ι} {cmv : Driver.CanNode.Move} {rest : List BusFrame}, Spec.CanNode.Ok cmv → (∀ b ∈ rest, Valid b) → Spec.CanSegment.act p s i cmv rest = .ok s' → Sound p s' := by
    intro i cmv rest hm hr e
    obtain ⟨e1, t, ha⟩ := acted hp h hm e
    refine ⟨ha.fine, fun j b hb => ?_⟩
    by_cases hji : j = i
    · subst hji; rw [e1] at hb; exact hr b hb
    · exact ha.inbox j hji b hb
  cases mv with
  | own i cmv => exact act hm (h.inbox i) e
  | deliver i =>
    simp only [step] at e
    cases hb : s.inbox i with
    | nil => rw [hb] at e; cases e; exact h
    | cons b l =>
      rw [hb] at e
      exact act (cmv := .rx b) (h.inbox i b (by rw [hb]; exact List.mem_cons_self ..)) (fun b' hb' => h.inbox i b' (by rw [hb]; exact List.mem_cons_of_mem _ hb')) e
  | power i ok ps ctl => exact (stepped hp h hm (fun i e => by cases e) e).1

theorem modest_step (hp : Proper p) (hA : ∀ i k m, Vscp.Sends (p.cb i k) m → Ordinary m) {s s' : Segment ι} (hs : Sound p s) (h : Modesty s) {mv : Move ι} (hm : CanSegment.Ok mv)
    (hmo : Modest mv) (e : step p s mv = .ok s') :
    Modesty s' ∧ ∀ i, mv = .own i .cycle → ∀ m ∈ (s'.node i).heard.drop (s.node i).heard.length, ¬(m.cls = 0 ∧ m.typ = 6) := by
  cases mv with
  | own i cmv =>
    obtain ⟨h1, h2⟩ := modest_act hp hA hs h hm hmo (h.inbox i) e
    exact ⟨h1, fun j hj => by cases hj; exact h2 rfl⟩
  | deliver i =>
    refine ⟨?_, fun j hj => by cases hj⟩
    simp only [step] at e
    cases hb : s.inbox i with
    | nil => rw [hb] at e; cases e; exact h
    | cons b l =>
      rw [hb] at e
      exact (modest_act hp hA hs h (mv := .rx b) (hs.inbox i b (by rw [hb]; exact List.mem_cons_self ..)) (h.inbox i b (by rw [hb]; exact List.mem_cons_self ..))
        (fun b' hb' => h.inbox i b' (by rw [hb]; exact List.mem_cons_of_mem _ hb')) e).1
  | power i ok ps ctl =>
    refine ⟨?_, fun j hj => by cases hj⟩
    cases e
    refine ⟨fun j b hb => ?_, fun j b hb => ?_, fun j b hb => ?_⟩
    · dsimp only at hb
      by_cases hj : j = i
      · rw [if_pos hj] at hb; cases hb
      · rw [if_neg hj] at hb; exact h.inbox j b hb
    · dsimp only at hb
      by_cases hj : j = i
      · rw [if_pos hj, boot_unheard] at hb; cases hb
      · rw [if_neg hj] at hb; exact h.unheard j b hb
    · dsimp only at hb
      by_cases hj : j = i
      · rw [if_pos hj, boot_waiting] at hb; cases hb
      · rw [if_neg hj] at hb; exact h.waiting j b hb

theorem unassigned_run (hp : Proper p) (hA : ∀ i k m, Vscp.Sends (p.cb i k) m → Ordinary m) : ∀ (l : List (Move ι)) (s : Segment ι), Sound p s → Modesty s →
    (∀ mv ∈ l, CanSegment.Ok mv ∧ Modest mv) → Unassigned p s l
  | [], _, _, _, _ => by intro pre i post s1 s2 e; simp at e
  | mv :: l, s, hs, h, hl => by
    intro pre i post s1 s2 e hr hst _
    obtain ⟨hm, hmo⟩ := hl mv (List.mem_cons_self ..)
    cases pre with
    | nil =>
      simp only [List.nil_append, List.cons.injEq] at e
      cases hr
      exact (modest_step hp hA hs h hm hmo (e.1 ▸ hst)).2 i e.1
    | cons y pre =>
      simp only [List.cons_append, List.cons.injEq] at e
      obtain ⟨rfl, e⟩ := e
      unfold run at hr
      cases hx : step p s mv with
      | ok s3 =>
        rw [hx] at hr
        exact unassigned_run hp hA l s3 (sound_step hp hs hm hx) (modest_step hp hA hs h hm hmo hx).1 (fun mv h => hl mv (List.mem_cons_of_mem _ h)) pre i post s1 s2 e hr hst ‹_›
      | ub => rw [hx] at hr; cases hr
      | impossible => rw [hx] at hr; cases hr

theorem modest_start (ok : ι → Tmr → Bool) (ps : ι → Nat → U8) (ctl : ι → Driver.CanDrv.State) : Modesty (start p ok ps ctl) where
  inbox := fun i b hb => by cases hb
  unheard := fun i b hb => absurd hb (by show b ∉ CanSegment.unheard (boot _ _ _ _ _); rw [boot_unheard]; exact List.not_mem_nil)
  waiting := fun i b hb => absurd hb (by show b ∉ waiting (boot _ _ _ _ _).x.1; rw [boot_waiting]; exact List.not_mem_nil)

/-- C122: no node hears that it is to use another nickname if neither an application nor something else than a node says so: the framework of no node does. -/
theorem C122_unassigned (hp : Proper p) (hA : ∀ i k m, Vscp.Sends (p.cb i k) m → Ordinary m) (ok : ι → Tmr → Bool) (ps : ι → Nat → U8) (ctl : ι → Driver.CanDrv.State)
    (l : List (Move ι)) (hl : ∀ mv ∈ l, CanSegment.Ok mv ∧ Modest mv) : Unassigned p (start p ok ps ctl) l :=
  unassigned_run hp hA l _ (sound_start hp ok ps ctl) (modest_start ok ps ctl) hl

/-! ### A newcomer -/

/-- Node `d` waits for an answer: its probe is on the way to the node which has the nickname, or the answer is on the way back. -/
def Asked (s : Segment ι) (d a : ι) (q : U8) : Prop :=
  (∃ b prio hard nick, prio.toNat < 8 ∧ b = protocol prio hard 2 nick [q] ∧ OnWay s d a b) ∨ ∃ b prio hard, prio.toNat < 8 ∧ b = protocol prio hard 3 q [] ∧ OnWay s a d b

/-- A move keeps frames on the way between two nodes, except the one which one of them hears. -/
theorem onWay_act {s s' : Segment ι} {k : ι} {mv : Driver.CanNode.Move} {t : List Out} (h : Acted p s s' k mv t) (hin : ∀ b ∈ s.inbox k, b ∈ s'.inbox k ∨ b ∈ unheard (s'.node k))
    {i j : ι} (hij : i ≠ j) {b : BusFrame} (hb : OnWay s i j b) : OnWay s' i j b ∨ (j = k ∧ mv = .cycle ∧ unheard (s.node k) = [b]) := by
  rcases hb with hb | hb | hb
  · by_cases hi : i = k
    · subst hi; exact .inl (h.waits b hb j (Ne.symm hij))
    · exact .inl (.inl (by rw [(h.other i hi).1]; exact hb))
  · by_cases hj : j = k
    · subst hj; exact .inl (.inr (hin b hb))
    · exact .inl (.inr (.inl ((h.other j hj).2 b hb)))
  · by_cases hj : j = k
    · subst hj
      have heff := h.effect
      cases mv with
      | cycle =>
        obtain ⟨m, -, -, -, ⟨-, e⟩ | ⟨m', b', -, e, -⟩⟩ := heff
        · rw [e] at hb; cases hb
        · rw [e] at hb
          cases List.mem_singleton.1 hb
          exact .inr ⟨rfl, rfl, e⟩
      | call op => exact .inl (.inr (.inr (by rw [heff.2.2.2]; exact hb)))
      | rx b' => exact .inl (.inr (.inr (heff.2.2.1 b hb)))
      | tx => exact .inl (.inr (.inr (by rw [heff.2.2]; exact hb)))
    · exact .inl (.inr (.inr (by rw [(h.other j hj).1]; exact hb)))

theorem new_frame {s s' : Segment ι} {i j : ι} {mv : Driver.CanNode.Move} {t t' : List Out} (h : Acted p s s' i mv t) (hj : j ≠ i) {m : Msg}
    (ht : (s'.node i).w.out = (s.node i).w.out ++ t') (hm : .tx m true ∈ t') : OnWay s' i j (wireOf m) := by
  have : t = t' := List.append_cancel_left (h.out.symm.trans ht)
  subst this
  exact h.sends m (mem_taken hm) j hj

theorem probe_wire {m : Msg} {q : U8} (h : IsProbe m q) (hp : m.prio.toNat < 8) : wireOf m = protocol m.prio m.hard 2 m.oAddr [q] := by
  obtain ⟨h1, h2, h3, h4⟩ := h
  rw [wireOf_eq hp (by rw [h1]; decide)]
  have hpl : payload m = [q] := by
    have := (States.payload_of_size h3 h4 h1 h2).data
    unfold payload
    rw [h3]
    exact this
  unfold frameOf protocol
  rw [hpl, h3]
  unfold Drv.canId
  rw [h1, h2]
  have e0 : (0 : U16).toNat = 0 := rfl
  simp only [BusFrame.mk.injEq, true_and, and_true]
  exact ⟨by omega, rfl⟩

/-- A node which starts to wait for the answer to a probe has sent it. -/
theorem cycle_probes {c : Ctx} (hok : ∀ n, c.txOk n = true) {rx : Option Msg} {w : W} {q : U8} (h : awaits (Core.process c rx w).2 q) :
    (awaits w q ∧ ∀ m, (Transport.readMessage c rx w).1 = some m → ¬IsAck m q) ∨
    ∃ t m, (Core.process c rx w).2.out = w.out ++ t ∧ .tx m true ∈ t ∧ IsProbe m q ∧ m.prio.toNat < 8 := by
  rcases cycle_awaits hok h with h | ⟨f, h1, h2⟩
  · exact .inl h
  · obtain ⟨t, ht, hf⟩ := steps_fit (fun m hm => by revert hm; cases w.v.st <;> simp [stateActs, eventActs, protoActs, writeActs]) (process_state c rx w)
    rw [pre_out] at ht
    unfold framesSent at h2
    rw [ht, List.drop_left, List.mem_filterMap] at h2
    obtain ⟨o, ho, e⟩ := h2
    have : o = .tx f true := by
      cases o with
      | tx m r => cases r <;> simp_all
      | _ => cases e
    subst this
    exact .inr ⟨t, f, ht, ho, h1, (hf f true ho).1⟩

theorem asked_step (hp : Proper p) {s s' : Segment ι} {mv : Move ι} (hs : Stepped p s s' mv) {d a : ι} (hd : d ≠ a) {q : U8} (hu : uses (s.node a).w q) (hu' : uses (s'.node a).w q)
    (h : awaits (s.node d).w q → Asked s d a q) (hw : awaits (s'.node d).w q) : Asked s' d a q := by
  cases hs with
  | none e => subst e; exact h hw
  | power k hk hk' ho =>
    have ha : a ≠ k := fun e => by subst e; exact hk q hu'
    have hdk : d ≠ k := fun e => by subst e; exact hk' q hw
    rw [(ho d hdk).1] at hw
    have := h hw
    unfold Asked OnWay at this ⊢
    rw [(ho d hdk).1, (ho a ha).1, (ho d hdk).2, (ho a ha).2]
    exact this
  | act k cmv t hmv hact hin =>
    have heff := hact.effect
    -- what is on the way stays there, or is answered, or is the answer which the node hears
    have keep : awaits (s.node d).w q → (∀ b m, k = d → cmv = .cycle → unheard (s.node d) = [b] → Carries b m → (s'.node d).heard = (s.node d).heard ++ [m] → ¬IsAck m q) → Asked s' d a q := by
      intro hw0 hn
      rcases h hw0 with ⟨b, prio, hard, nick, h8, rfl, hb⟩ | ⟨b, prio, hard, h8, rfl, hb⟩
      · rcases onWay_act hact hin hd hb with hb | ⟨rfl, rfl, e⟩
        · exact .inl ⟨_, prio, hard, nick, h8, rfl, hb⟩
        · obtain ⟨m, e1, -, -, ⟨-, e3⟩ | ⟨m', b', rfl, e4, e5⟩⟩ := heff
          · rw [e] at e3; cases e3
          · rw [e] at e4
            cases e4
            obtain ⟨t', ht, hm⟩ := cycle_answers (hp.cb a _) (hp.lb a _) (hp.proto a _) (hp.tx a _) hu (carries_probe h8 e5)
            refine .inr ⟨_, 0, (p.ctx a (s.life a)).hardCoded, by decide, wireOf_event _ q 0 3 (by decide) [] (by simp), ?_⟩
            exact new_frame hact hd (by rw [e1]; exact ht) hm
      · rcases onWay_act hact hin (Ne.symm hd) hb with hb | ⟨rfl, rfl, e⟩
        · exact .inr ⟨_, prio, hard, h8, rfl, hb⟩
        · obtain ⟨m, -, e2, -, ⟨-, e3⟩ | ⟨m', b', rfl, e4, e5⟩⟩ := heff
          · rw [e] at e3; cases e3
          · rw [e] at e4
            cases e4
            exact absurd (carries_ack h8 e5) (hn _ m' rfl rfl e e5 e2)
    by_cases hk : d = k
    · subst hk
      cases cmv with
      | cycle =>
        obtain ⟨m, e1, e2, -⟩ := heff
        by_cases ha : (s.node d).w.v.st = .active
        · rw [e1] at hw
          exact absurd hw (active_awaits (hp.cb d _) (hp.proto d _) ha q)
        · have e : (s'.node d).w = (Core.process (p.ctx d (s.life d)) m (s.node d).w).2 := by
            rw [e1]; exact Speech.inactive_processC ha
          rcases cycle_probes (hp.tx d _) (e ▸ hw) with ⟨h1, h2⟩ | ⟨t', f, ht, hf, hpr, h8⟩
          · refine keep h1 fun b m' _ _ _ _ e3 => h2 m' ?_
            rw [read_eq (hp.lb d _)]
            have := List.append_cancel_left (e2.symm.trans e3)
            cases m <;> simp_all
          · refine .inl ⟨_, f.prio, f.hard, f.oAddr, h8, rfl, ?_⟩
            rw [← probe_wire hpr h8]
            exact new_frame hact (Ne.symm hd) (by rw [e]; exact ht) hf
      | call op =>
        rw [heff.1] at hw
        exact keep (op_awaits heff.2.1 hw).1 fun _ _ _ e => (by cases e)
      | rx b => rw [heff.1] at hw; exact keep hw fun _ _ _ e => (by cases e)
      | tx => rw [heff.1] at hw; exact keep hw fun _ _ _ e => (by cases e)
    · rw [(hact.other d hk).1] at hw
      exact keep hw fun _ _ e => absurd e.symm hk

theorem asked_run (hp : Proper p) {d a : ι} (hd : d ≠ a) {q : U8} : ∀ (l : List (Move ι)) (s s' : Segment ι), Sound p s → (∀ mv ∈ l, CanSegment.Ok mv) → Paced p s l →
    (∀ pre post s1, l = pre ++ post → run p pre s = .ok s1 → uses (s1.node a).w q) → (awaits (s.node d).w q → Asked s d a q) → run p l s = .ok s' →
    Sound p s' ∧ (awaits (s'.node d).w q → Asked s' d a q)
  | [], s, s', hs, _, _, _, h, e => by cases e; exact ⟨hs, h⟩
  | mv :: l, s, s', hs, hl, hpc, hu, h, e => by
    unfold run at e
    cases hst : step p s mv with
    | ok s1 =>
      rw [hst] at e
      obtain ⟨h1, h2⟩ := stepped hp hs (hl mv (List.mem_cons_self ..)) (paced_head hpc) hst
      have one : ∀ pre s2, run p pre s1 = .ok s2 → run p (mv :: pre) s = .ok s2 := by
        intro pre s2 hr
        show (match step p s mv with | .ok s => run p pre s | .ub => .ub | .impossible => .impossible) = _
        rw [hst]
        exact hr
      refine asked_run hp hd l s1 s' h1 (fun mv h => hl mv (List.mem_cons_of_mem _ h)) (paced_tail hst hpc)
        (fun pre post s2 e hr => hu (mv :: pre) post s2 (by rw [e]; rfl) (one pre s2 hr)) ?_ e
      exact asked_step hp h2 hd (hu [] _ s rfl rfl) (hu [mv] l s1 rfl (one [] s1 rfl)) h
    | ub => rw [hst] at e; cases e
    | impossible => rw [hst] at e; cases e

theorem sound_run (hp : Proper p) : ∀ (l l' : List (Move ι)) (s s' : Segment ι), Sound p s → (∀ mv ∈ l, CanSegment.Ok mv) → Paced p s (l ++ l') → run p l s = .ok s' →
    Sound p s' ∧ Paced p s' l'
  | [], _, s, s', hs, _, hpc, e => by cases e; exact ⟨hs, hpc⟩
  | mv :: l, l', s, s', hs, hl, hpc, e => by
    unfold run at e
    cases hst : step p s mv with
    | ok s1 =>
      rw [hst] at e
      exact sound_run hp l l' s1 s' (stepped hp hs (hl mv (List.mem_cons_self ..)) (paced_head hpc) hst).1 (fun mv h => hl mv (List.mem_cons_of_mem _ h)) (paced_tail hst hpc) e
    | ub => rw [hst] at e; cases e
    | impossible => rw [hst] at e; cases e

theorem paced_left {s : Segment ι} {l l' : List (Move ι)} (h : Paced p s (l ++ l')) : Paced p s l :=
  fun pre i post s1 e => h pre i (post ++ l') s1 (by rw [e, List.append_assoc]; rfl)

/-- C122: a node which looks for a nickname does not take the one of a node which had it when the first probe for it was sent and still has it, if the two nodes have heard and sent everything
when the node decides (compare C64, also about what is missing). -/
theorem C122_newcomer (hp : Proper p) (ok : ι → Tmr → Bool) (ps : ι → Nat → U8) (ctl : ι → Driver.CanDrv.State) (pre l : List (Move ι)) (mv : Move ι)
    (hl : ∀ mv' ∈ pre ++ l ++ [mv], CanSegment.Ok mv') (hpc : Paced p (start p ok ps ctl) (pre ++ l ++ [mv])) {s0 s s' : Segment ι} (e0 : run p pre (start p ok ps ctl) = .ok s0)
    (e : run p l s0 = .ok s) (e' : step p s mv = .ok s') {d a : ι} (hd : d ≠ a) {q : U8} (hw : ¬awaits (s0.node d).w q)
    (hu : ∀ pre' post s1, l = pre' ++ post → run p pre' s0 = .ok s1 → uses (s1.node a).w q) (hsd : Silent s d) (hsa : Silent s a) (hi : (s.node d).w.v.st = .init) :
    ¬uses (s'.node d).w q := by
  intro h
  rw [List.append_assoc] at hpc hl
  obtain ⟨hs0, hp0⟩ := sound_run hp pre (l ++ [mv]) _ _ (sound_start hp ok ps ctl) (fun mv h => hl mv (List.mem_append_left _ h)) hpc e0
  have hl' : ∀ mv ∈ l, CanSegment.Ok mv := fun mv h => hl mv (List.mem_append_right _ (List.mem_append_left _ h))
  obtain ⟨hs, hp1⟩ := sound_run hp l [mv] _ _ hs0 hl' hp0 e
  have hnot : ¬awaits (s.node d).w q := by
    intro ha
    rcases (asked_run hp hd l s0 s hs0 hl' (paced_left hp0) hu (fun e => absurd e hw) e).2 ha with ⟨b, -, -, -, -, -, hb⟩ | ⟨b, -, -, -, -, hb⟩
    · exact silent_none hs hsd hsa hb
    · exact silent_none hs hsa hsd hb
  have hne : (s.node d).w.v.st ≠ .active := by rw [hi]; decide
  have hno : ¬uses (s.node d).w q := fun h => hne h.1
  obtain ⟨-, hst⟩ := stepped hp hs (hl mv (List.mem_append_right _ (List.mem_append_right _ (List.mem_singleton_self _)))) (paced_head hp1) e'
  cases hst with
  | none e => subst e; exact hno h
  | power k hk hk' ho =>
    by_cases hdk : d = k
    · subst hdk; exact hk q h
    · rw [(ho d hdk).1] at h; exact hno h
  | act k cmv t hmv hact hin =>
    by_cases hdk : d = k
    · subst hdk
      have heff := hact.effect
      cases cmv with
      | cycle =>
        obtain ⟨m, e1, -⟩ := heff
        have e : (s'.node d).w = (Core.process (p.ctx d (s.life d)) m (s.node d).w).2 := by
          rw [e1]; exact Speech.inactive_processC hne
        rw [e] at h
        by_cases hpw : (s.node d).w.v.ist = .probeWait ∧ (disc (s.node d).w).running = false
        · rcases cycle_probeWait (p.ctx d (s.life d)) m (s.node d).w hi hpw.1 with ⟨-, -, hn, -⟩ | ⟨hb, -⟩
          · exact hnot ⟨hi, hpw.1, hn.symm.trans h.2⟩
          · rw [hpw.2] at hb; cases hb
        · exact (Nickname.init_nick (p.ctx d (s.life d)) m (s.node d).w hi fun h1 => by
            cases hb : (disc (s.node d).w).running with
            | true => rfl
            | false => exact absurd ⟨h1, hb⟩ hpw).2 h.1
      | call op => rw [heff.1] at h; exact op_notActive heff.2.1 hne h.1
      | rx b => rw [heff.1] at h; exact hno h
      | tx => rw [heff.1] at h; exact hno h
    · rw [(hact.other d hdk).1] at h; exact hno h

/-! ### Two nodes -/

/-- Two nodes as the AVR example makes them. -/
def exParts : Parts Bool := ⟨fun _ _ => AvrProps.exSurr.ctx 0, fun _ _ => AvrProps.exSurr.cb 0, fun _ _ => exAround⟩

theorem ex_proper : Proper exParts := ⟨fun _ _ => AvrProps.good _ _, fun _ _ => AvrProps.cb_ok _, fun _ _ => rfl, fun _ _ => rfl, fun _ _ _ => rfl⟩

/-- Their memories: nodes with these nicknames. -/
def exMems (a b : U8) : Bool → Nat → U8 := fun i x => if x = 0 then (if i then a else b) else AvrProps.exMem x

def exCtl : Driver.CanDrv.State := ⟨Vector.replicate 15 empty, false⟩

def exStart (a b : U8) : Segment Bool := start exParts (fun _ => allOk) (exMems a b) fun _ => exCtl

def exCyc (i : Bool) : Move Bool := .own i .cycle
def exTx (i : Bool) : Move Bool := .own i .tx

/-- What the examples show of a node: whether it is active, its nickname, whether it is silent. -/
def exLook (r : Res (Segment Bool)) : Option (List (Bool × U8 × Bool)) :=
  match r with
  | .ok s => some ([true, false].map fun i => (decide ((s.node i).w.v.st = .active), (s.node i).w.v.nick,
      (s.inbox i).isEmpty && (s.node i).x.2.stored.length == (s.node i).heard.length && (s.node i).x.2.wire.length == (taken (s.node i).w.out).length))
  | _ => none

/-- The events which the AVR example sends in its callbacks. -/
theorem ordinary (s : Avr.Surr) (n : Nat) : ∀ m, Vscp.Sends (s.cb n) m → Ordinary m := by
  rintro m ⟨w, hm⟩
  unfold Avr.Surr.cb Avr.cb at hm
  split at hm
  · split at hm
    · cases List.mem_singleton.1 hm; exact of_class (k := 20) rfl (by decide) fun h => absurd h (by decide)
    · split at hm
      · cases List.mem_singleton.1 hm; exact of_class (k := 20) rfl (by decide) fun h => absurd h (by decide)
      · cases hm
  · cases hm

/-- Two nodes with the nickname 5 get active, the second one after a loss of power.  It announces itself, the first one answers, and the second one looks for another nickname and takes 1. -/
def exBoth : List (Move Bool) :=
  [exCyc true, exTx true, .deliver false, .power false allOk (exMems 5 5 false) exCtl, exCyc false]

def exResolved : List (Move Bool) :=
  exBoth ++ [exTx false, .deliver true, exCyc true, exTx true, .deliver false, exCyc false, exCyc false, exTx false, .deliver true, exCyc true, .own false (.call (.tick 5000)), exCyc false,
    exCyc false, exTx false, .deliver true, exCyc true, .own false (.call (.tick 5000)), exCyc false, exTx false, .deliver true, exCyc true]

/-- All hypotheses of `C122_no_duplicates` but the equality of the nicknames are met, and there was a duplicate before. -/
example : Proper exParts ∧ (∀ mv ∈ exResolved, CanSegment.Ok mv) ∧ Paced exParts (exStart 5 5) exResolved ∧ Unassigned exParts (exStart 5 5) exResolved ∧
    exLook (run exParts exBoth (exStart 5 5)) = some [(true, 5, true), (true, 5, false)] ∧
    exLook (run exParts exResolved (exStart 5 5)) = some [(true, 5, true), (true, 1, true)] := by
  have hok : ∀ mv ∈ exResolved, CanSegment.Ok mv := by simp [exResolved, exBoth, exCyc, exTx, CanSegment.Ok, Spec.CanNode.Ok]
  have hmo : ∀ mv ∈ exResolved, Modest mv := by simp [exResolved, exBoth, exCyc, exTx, Modest]
  refine ⟨ex_proper, hok, C122_in_turn ex_proper _ _ _ _ hok ?_, C122_unassigned ex_proper (fun _ _ => ordinary _ _) _ _ _ _ fun mv h => ⟨hok mv h, hmo mv h⟩, by decide +kernel, by decide +kernel⟩
  simp [exResolved, exBoth, exCyc, exTx, InTurn, next]

/-- A node with the nickname 1 gets active. -/
def exFirst : List (Move Bool) := [exCyc true, exTx true, .deliver false]

/-- The other one has none.  It probes 1, which is answered, and then 2. -/
def exSecond : List (Move Bool) :=
  [exCyc false, exCyc false, exTx false, .deliver true, exCyc true, .own false (.call (.tick 5000)), exCyc false, exCyc false, exTx false, .deliver true, exCyc true, exTx true, .deliver false,
    exCyc false, exCyc false, exTx false, .deliver true, exCyc true, .own false (.call (.tick 5000))]

/-- The hypotheses of `C122_newcomer` are met, the node waited for an answer about the nickname 1, and takes 2. -/
example : Paced exParts (exStart 1 0xFF) (exFirst ++ exSecond ++ [exCyc false]) ∧
    (∀ n ≤ exSecond.length, (exLook (run exParts (exFirst ++ exSecond.take n) (exStart 1 0xFF))).map (fun l => l.headD (false, 0, false) |>.2.1) = some 1) ∧
    (match run exParts (exFirst ++ exSecond.take 8) (exStart 1 0xFF) with | .ok s => decide ((s.node false).w.v.ist = .probeWait ∧ (s.node false).w.v.probe = 1) | _ => false) = true ∧
    exLook (run exParts (exFirst ++ exSecond) (exStart 1 0xFF)) = some [(true, 1, true), (false, 0xFF, true)] ∧
    exLook (run exParts (exFirst ++ exSecond ++ [exCyc false]) (exStart 1 0xFF)) = some [(true, 1, true), (true, 2, false)] := by
  refine ⟨C122_in_turn ex_proper _ _ _ _ ?_ ?_, by decide +kernel, by decide +kernel, by decide +kernel, by decide +kernel⟩
  · simp [exFirst, exSecond, exCyc, exTx, CanSegment.Ok, Spec.CanNode.Ok]
  · simp [exFirst, exSecond, exCyc, exTx, InTurn, next]

end Vscp.CanSegment
