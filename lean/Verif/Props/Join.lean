/-
Property theorems: a node joins a segment (C94).
-/
import Verif.Lemmas.Join

namespace Vscp.Network
open M Spec Transport Net Discovery Probe

variable {ι : Type} [DecidableEq ι] {cs : ι → Ctx}

/-! ### The segment while a node joins -/

/-- The frames on the way to node `j`. -/
def Mail (d : ι) (ν : ι → U8) (j : ι) (f : Msg) : Prop :=
  f.cls ≠ 0 ∨ f.typ = 2 ∨ f.typ = 7 ∨ f.typ = 39 ∨ (f.typ = 3 ∧ (j ≠ d → f.oAddr ≠ ν j) ∧ (j = d → Taken d ν f.oAddr))

/-- All nicknames in front of `p` are taken. -/
def Scan (c : Ctx) (d : ι) (ν : ι → U8) (p : U8) : Prop :=
  c.startProbe.toNat ≤ p.toNat ∧ ∀ q : U8, c.startProbe.toNat ≤ q.toNat → q.toNat < p.toNat → Taken d ν q

/-- How far the node is. -/
def Phase (c : Ctx) (d : ι) (ν : ι → U8) (w : W) : Prop :=
  (w.v.st = .init ∧ (w.v.ist = .probeMaster ∨ w.v.ist = .probeMasterWait)) ∨
  (w.v.st = .init ∧ w.v.ist = .probe ∧ Scan c d ν w.v.probe) ∨
  (w.v.st = .init ∧ w.v.ist = .probeWait ∧ Scan c d ν w.v.probe ∧ w.v.probe ≠ 0xFF) ∨
  (w.v.st = .active ∧ Lowest c.startProbe d ν w.v.nick) ∨
  (w.v.st = .idle ∧ Full c.startProbe d ν)

structure Joining (cs : ι → Ctx) (d : ι) (ν : ι → U8) (s : Net ι) : Prop where
  ordered : Ordered cs s
  ok : (s.node d).tm.ok .main = true
  members : ∀ a, a ≠ d → uses (s.node a) (ν a)
  post : ∀ j, ∀ f ∈ unread cs s j, Mail d ν j f
  asked : ∀ a, a ≠ d → awaits (s.node d) (ν a) → Asked cs s d a (ν a)
  phase : Phase (cs d) d ν (s.node d)

omit [DecidableEq ι] in
theorem Phase.congr {c : Ctx} {d : ι} {ν : ι → U8} {w w' : W} (h : Phase c d ν w) (h1 : w'.v.st = w.v.st) (h2 : w'.v.ist = w.v.ist)
    (h3 : w'.v.probe = w.v.probe) (h4 : w'.v.nick = w.v.nick) : Phase c d ν w' := by
  unfold Phase
  rw [h1, h2, h3, h4]
  exact h

omit [DecidableEq ι] in
theorem scan_succ {c : Ctx} {d : ι} {ν : ι → U8} {p : U8} (h : Scan c d ν p) (hp : p ≠ 0xFF) (ht : Taken d ν p) : Scan c d ν (p + 1) := by
  have hp' : p.toNat ≠ 255 := fun e => hp (BitVec.eq_of_toNat_eq e)
  have e : (p + 1).toNat = p.toNat + 1 := by
    have := p.isLt
    rw [BitVec.toNat_add]
    show (p.toNat + 1) % 256 = _
    omega
  refine ⟨by rw [e]; exact Nat.le_succ_of_le h.1, fun q h1 h2 => ?_⟩
  rw [e] at h2
  by_cases hq : q = p
  · rw [hq]; exact ht
  · have : q.toNat ≠ p.toNat := fun e => hq (BitVec.eq_of_toNat_eq e)
    exact h.2 q h1 (by omega)

omit [DecidableEq ι] in
/-- What a member of the segment sees does not disturb it. -/
theorem mail_member {d : ι} {ν : ι → U8} {a : ι} (ha : a ≠ d) {f : Msg} (h : Mail d ν a f) : Harmless (ν a) f := by
  rcases h with h | h | h | h | ⟨h, h', -⟩
  · exact .inl h
  · exact .inr (.inl h)
  · exact .inr (.inr (.inl h))
  · exact .inr (.inr (.inr (.inl h)))
  · exact .inr (.inr (.inr (.inr ⟨h, h' ha⟩)))

omit [DecidableEq ι] in
/-- The same for the node which has joined. -/
theorem mail_joined {d : ι} {ν : ι → U8} {n : U8} (hn : ¬Taken d ν n) {f : Msg} (h : Mail d ν d f) : Harmless n f := by
  rcases h with h | h | h | h | ⟨h, -, h'⟩
  · exact .inl h
  · exact .inr (.inl h)
  · exact .inr (.inr (.inl h))
  · exact .inr (.inr (.inr (.inl h)))
  · exact .inr (.inr (.inr (.inr ⟨h, fun e => hn (e ▸ h' rfl)⟩)))

omit [DecidableEq ι] in
/-- The read of a cycle. -/
theorem cycle_mail {d : ι} {ν : ι → U8} {s : Net ι} (h : Joining cs d ν s) {i : ι} {b : Bool} {m : Msg}
    (hm : (readMessage (cs i) (if b then (s.inbox i).head? else none) (s.node i)).1 = some m) : Mail d ν i m :=
  h.post i m (seen_mem h.ordered (b := b) hm)

omit [DecidableEq ι] in
/-- A cycle of the node which joins. -/
theorem join_cycle (hr : Reliable cs) {d : ι} {ν : ι → U8} (hν : Members d ν) {s : Net ι} (h : Joining cs d ν s) (b : Bool)
    (ht : ∀ q, awaits (s.node d) q → (s.node d).tm.rem .main = 0 → silent cs s) :
    Phase (cs d) d ν (Core.process (cs d) (if b then (s.inbox d).head? else none) (s.node d)).2 := by
  have hmail := fun m => cycle_mail h (i := d) (b := b) (m := m)
  have hask := h.asked
  have hok := h.ok
  generalize (if b then (s.inbox d).head? else none) = rx at *
  have htaken : ∀ m q, (readMessage (cs d) rx (s.node d)).1 = some m → ackFrom m q → Taken d ν q := by
    rintro m q hm ⟨h0, h3, rfl⟩
    rcases hmail m hm with h | h | h | h | ⟨-, -, h⟩
    · exact absurd h0 h
    · rw [h3] at h; exact absurd h (by decide)
    · rw [h3] at h; exact absurd h (by decide)
    · rw [h3] at h; exact absurd h (by decide)
    · exact h rfl
  have hnm : ∀ m, (readMessage (cs d) rx (s.node d)).1 = some m → ¬ackFrom m 0 := by
    intro m hm ha
    obtain ⟨a, h1, h2⟩ := htaken m 0 hm ha
    exact hν.noMaster a h1 h2
  have hrem : (disc (s.node d)).running = false → (s.node d).tm.rem .main = 0 := by
    intro hrn
    have : ((s.node d).tm.ok .main && (s.node d).tm.rem .main != 0) = false := hrn
    rw [hok] at this
    simpa using this
  rcases h.phase with ⟨hst, hist | hist⟩ | ⟨hst, hist, hsc⟩ | ⟨hst, hist, hsc, hne⟩ | ⟨hst, hlow⟩ | ⟨hst, hfull⟩
  · rcases cycle_probeMaster (cs d) rx (s.node d) hst hist with ⟨hf, -, -⟩ | ⟨-, -, hd⟩
    · rw [hr.tx] at hf; cases hf
    · exact .inl ⟨(congrArg Disc.st hd).trans hst, .inr (congrArg Disc.ist hd)⟩
  · obtain ⟨-, ⟨-, hd⟩ | ⟨-, hd | hd⟩⟩ := cycle_probeMasterWait (cs d) rx (s.node d) hst hist
    · refine .inr (.inl ⟨(congrArg Disc.st hd).trans hst, congrArg Disc.ist hd, ?_⟩)
      rw [show (Core.process (cs d) rx (s.node d)).2.v.probe = (cs d).startProbe from congrArg Disc.probe hd]
      exact ⟨Nat.le_refl _, fun q h1 h2 => absurd h1 (by omega)⟩
    · obtain ⟨m, hm, ha⟩ := preActive_ack hst hist (congrArg Disc.st hd)
      exact absurd ha (hnm m hm)
    · exact .inl ⟨(congrArg Disc.st hd).trans hst, .inr ((congrArg Disc.ist hd).trans hist)⟩
  · rcases cycle_probe (cs d) rx (s.node d) hst hist with ⟨hf, -, -⟩ | ⟨-, -, ⟨hff, hd⟩ | ⟨hnf, hd⟩⟩
    · rw [hr.tx] at hf; cases hf
    · refine .inr (.inr (.inr (.inr ⟨hd, fun p h1 h2 => hsc.2 p h1 ?_⟩)))
      rw [hff]
      have : p.toNat ≠ 255 := fun e => h2 (BitVec.eq_of_toNat_eq e)
      have := p.isLt
      show p.toNat < 255
      omega
    · have e : (Core.process (cs d) rx (s.node d)).2.v.probe = (s.node d).v.probe := congrArg Disc.probe hd
      exact .inr (.inr (.inl ⟨(congrArg Disc.st hd).trans hst, congrArg Disc.ist hd, by rw [e]; exact hsc, by rw [e]; exact hnf⟩))
  · rcases cycle_probeWait (cs d) rx (s.node d) hst hist with ⟨hrn, ha, hn, -⟩ | ⟨-, -, ⟨⟨m, hm, hack⟩, hd⟩ | ⟨-, hd⟩⟩
    · refine .inr (.inr (.inr (.inl ⟨ha, ?_⟩)))
      rw [hn]
      refine ⟨hne, hsc.1, ?_, hsc.2⟩
      rintro ⟨a, had, hap⟩
      have hsil := ht _ ⟨hst, hist, rfl⟩ (hrem hrn)
      rcases hask a had ⟨hst, hist, hap.symm⟩ with ⟨m, -, hm⟩ | ⟨m, -, hm⟩
      · rw [hsil] at hm; cases hm
      · rw [hsil] at hm; cases hm
    · have e : (Core.process (cs d) rx (s.node d)).2.v.probe = (s.node d).v.probe + 1 := congrArg Disc.probe hd
      refine .inr (.inl ⟨(congrArg Disc.st hd).trans hst, congrArg Disc.ist hd, ?_⟩)
      rw [e]
      exact scan_succ hsc hne (htaken m _ hm hack)
    · have e : (Core.process (cs d) rx (s.node d)).2.v.probe = (s.node d).v.probe := congrArg Disc.probe hd
      exact .inr (.inr (.inl ⟨(congrArg Disc.st hd).trans hst, (congrArg Disc.ist hd).trans hist, by rw [e]; exact hsc, by rw [e]; exact hne⟩))
  · obtain ⟨⟨e1, e2⟩, -⟩ := member_cycle (c := cs d) (rx := rx) hst fun m hm => mail_joined hlow.free (hmail m hm)
    exact .inr (.inr (.inr (.inl ⟨e1, by rw [e2]; exact hlow⟩)))
  · rw [process_idle (.inl hst)]
    exact .inr (.inr (.inr (.inr ⟨(pre_same (cs d) rx (s.node d) .st (by decide)).trans hst, hfull⟩)))

omit [DecidableEq ι] in
/-- The frames of a cycle of the node which joins, for the others. -/
theorem join_sends {d : ι} {ν : ι → U8} {s : Net ι} (h : Joining cs d ν s) (b : Bool) {f : Msg}
    (hf : f ∈ framesSent (s.node d) (Core.process (cs d) (if b then (s.inbox d).head? else none) (s.node d)).2) {j : ι} (hj : j ≠ d) : Mail d ν j f := by
  have hmail := fun m => cycle_mail h (i := d) (b := b) (m := m)
  generalize (if b then (s.inbox d).head? else none) = rx at *
  have hlook : looking (s.node d) → Mail d ν j f := by
    intro hl
    obtain ⟨t, ho, hs⟩ := cycle_says (cs d) rx (s.node d) hl
    have : Own true f := by
      rcases hs _ (framesSent_frames ho hf).2 f true rfl with ⟨⟨h1, h2⟩, -⟩ | ⟨h, -⟩
      · refine ⟨h1, ?_⟩
        rcases h2 with h2 | ⟨h2, -⟩
        · exact .inl h2
        · cases h2
      · exact h
    rcases this.2 with h | h
    · exact .inr (.inl h.1)
    · exact .inr (.inr (.inl h.2.1))
  rcases h.phase with ⟨hst, -⟩ | ⟨hst, -⟩ | ⟨hst, -⟩ | ⟨hst, hlow⟩ | ⟨hst, -⟩
  · exact hlook (.inl hst)
  · exact hlook (.inl hst)
  · exact hlook (.inl hst)
  · obtain ⟨-, hs⟩ := member_cycle (c := cs d) (rx := rx) hst fun m hm => mail_joined hlow.free (hmail m hm)
    rcases hs f hf with h | h | ⟨h, hn⟩
    · exact .inl h
    · exact .inr (.inr (.inr (.inl h)))
    · refine .inr (.inr (.inr (.inr ⟨h, fun _ e => hlow.free ⟨j, hj, ?_⟩, fun e => absurd e hj⟩)))
      rw [← e, hn]
  · exfalso
    rw [process_idle (.inl hst)] at hf
    have ho : (preProcess (cs d) rx (s.node d)).2.out = (s.node d).out ++ [] := by rw [pre_out, List.append_nil]
    have := (framesSent_frames ho hf).2
    cases this

theorem joining_step (hr : Reliable cs) {d : ι} {ν : ι → U8} (hν : Members d ν) {s : Net ι} (h : Joining cs d ν s) (mv : Move ι) (ho : mv.ordinary)
    (ht : ∀ b q, mv = .cycle d b → awaits (s.node d) q → (s.node d).tm.rem .main = 0 → silent cs s) : Joining cs d ν (step cs s mv) := by
  -- the other nodes keep their nicknames, and send nothing which disturbs the others
  have hmem : mv.who ≠ d → uses ((step cs s mv).node mv.who) (ν mv.who) ∧
      ∀ f ∈ framesSent (s.node mv.who) ((step cs s mv).node mv.who), SendsOnly (ν mv.who) f := by
    intro hd
    rw [node_who]
    obtain ⟨hst, hn⟩ := h.members _ hd
    cases mv with
    | call i op =>
      have hst : (s.node i).v.st = .active := hst
      have hn : (s.node i).v.nick = ν i := hn
      obtain ⟨h1, h2, -, -, -, h6⟩ := ordinary_op (cs i) ho (s.node i)
      exact ⟨⟨h1.trans hst, h2.trans hn⟩, fun f hf => .inl (h6 f hf)⟩
    | cycle i b =>
      have hd : i ≠ d := hd
      have hst : (s.node i).v.st = .active := hst
      have hn : (s.node i).v.nick = ν i := hn
      have := member_cycle (c := cs i) (rx := if b then (s.inbox i).head? else none) hst
        fun m hm => by rw [hn]; exact mail_member hd (cycle_mail h (i := i) (b := b) hm)
      rw [hn] at this
      exact this
  have hsend : ∀ f ∈ framesSent (s.node mv.who) ((step cs s mv).node mv.who), ∀ j, j ≠ mv.who → Mail d ν j f := by
    intro f hf j hj
    by_cases hd : mv.who = d
    · rw [node_who] at hf
      cases mv with
      | call i op =>
        have hf : f ∈ framesSent (s.node i) (stepOp (cs i) op (s.node i)).2 := hf
        exact .inl ((ordinary_op (cs i) ho (s.node i)).2.2.2.2.2 f hf)
      | cycle i b =>
        have hd : i = d := hd
        subst hd
        exact join_sends h b hf hj
    · rcases (hmem hd).2 f hf with h | h | ⟨h, hn⟩
      · exact .inl h
      · exact .inr (.inr (.inr (.inl h)))
      · refine .inr (.inr (.inr (.inr ⟨h, fun hjd e => hj (hν.inj _ _ hjd hd ?_), fun _ => ⟨mv.who, hd, hn.symm⟩⟩)))
        rw [← e, hn]
  have hmembers : ∀ a, a ≠ d → uses ((step cs s mv).node a) (ν a) := by
    intro a ha
    by_cases haw : a = mv.who
    · subst haw; exact (hmem ha).1
    · rw [node_other s mv haw]; exact h.members a ha
  refine ⟨ordered_step hr h.ordered mv, ?_, hmembers, ?_, ?_, ?_⟩
  · by_cases hd : d = mv.who
    · subst hd
      rw [node_who]
      cases mv with
      | call i op => exact (congrFun (ordinary_op (cs i) ho (s.node i)).2.2.2.2.1 _).trans h.ok
      | cycle i b => exact (congrFun (process_ok (cs i) _ (s.node i)) _).trans h.ok
    · rw [node_other s mv hd]; exact h.ok
  · intro j f hf
    by_cases hj : j = mv.who
    · subst hj
      rcases unread_who_mem h.ordered mv ho hf with hf | hf
      · exact h.post _ f hf
      · exact .inl hf
    · rw [unread_other s mv hj] at hf
      rcases List.mem_append.mp hf with hf | hf
      · exact h.post j f hf
      · exact hsend f hf j hj
  · intro a ha
    exact asked_step hr h.ordered mv (fun e => ha e.symm) (h.members a ha) (hmembers a ha) (h.asked a ha)
  · by_cases hd : d = mv.who
    · subst hd
      rw [node_who]
      cases mv with
      | call i op =>
        obtain ⟨h1, h2, h3, h4, -, -⟩ := ordinary_op (cs i) ho (s.node i)
        exact h.phase.congr h1 h3 h4 h2
      | cycle i b => exact join_cycle hr hν h b fun q => ht b q rfl
    · rw [node_other s mv hd]; exact h.phase

theorem Timely.tail {d : ι} {s : Net ι} {mv : Move ι} {l : List (Move ι)} (h : Timely cs d s (mv :: l)) : Timely cs d (step cs s mv) l :=
  fun l1 b l2 q e => h (mv :: l1) b l2 q (by rw [e]; rfl)

theorem Timely.init {d : ι} {s : Net ι} {l l' : List (Move ι)} (h : Timely cs d s (l ++ l')) : Timely cs d s l :=
  fun l1 b l2 q e => h l1 b (l2 ++ l') q (by rw [e]; simp)

theorem joining_run (hr : Reliable cs) {d : ι} {ν : ι → U8} (hν : Members d ν) (l : List (Move ι)) : ∀ s : Net ι, Joining cs d ν s →
    (∀ mv ∈ l, mv.ordinary) → Timely cs d s l → Joining cs d ν (run cs l s) := by
  induction l with
  | nil => exact fun s h _ _ => h
  | cons mv l ih =>
    intro s h ho ht
    refine ih _ (joining_step hr hν h mv (ho mv List.mem_cons_self) fun b q e => ?_) (fun m hm => ho m (List.mem_cons_of_mem _ hm)) (Timely.tail ht)
    exact ht [] b l q (by rw [e]; rfl)

/-- A node which has joined does not look for a nickname again. -/
theorem joined_step {d : ι} {ν : ι → U8} {s : Net ι} (h : Joining cs d ν s) (mv : Move ι) (ho : mv.ordinary)
    (hl : ¬looking (s.node d)) : ¬looking ((step cs s mv).node d) := by
  by_cases hd : d = mv.who
  · subst hd
    rw [node_who]
    cases mv with
    | call i op =>
      unfold looking
      rw [show (stepOp (cs (Move.call i op).who) ((Move.call i op).op s) (s.node (Move.call i op).who)).2.v.st = (s.node i).v.st from
        (ordinary_op (cs i) ho (s.node i)).1]
      exact hl
    | cycle i b =>
      show ¬looking (Core.process (cs i) (if b then (s.inbox i).head? else none) (s.node i)).2
      have hmail := fun m => cycle_mail h (i := i) (b := b) (m := m)
      have hl : ¬looking (s.node i) := hl
      generalize (if b then (s.inbox i).head? else none) = rx at *
      rcases h.phase with ⟨hst, -⟩ | ⟨hst, -⟩ | ⟨hst, -⟩ | ⟨hst, hlow⟩ | ⟨hst, -⟩
      · exact absurd (.inl hst) hl
      · exact absurd (.inl hst) hl
      · exact absurd (.inl hst) hl
      · obtain ⟨⟨e1, -⟩, -⟩ := member_cycle (c := cs i) (rx := rx) hst fun m hm => mail_joined hlow.free (hmail m hm)
        exact not_of_st e1 (by decide) (by decide)
      · have hst : (s.node i).v.st = .idle := hst
        rw [process_idle (.inl hst)]
        exact not_of_st ((pre_same (cs i) rx (s.node i) .st (by decide)).trans hst) (by decide) (by decide)
  · rw [node_other s mv hd]; exact hl

/-! ### The calls of one node -/

/-- The calls of node `d`, with the events. -/
def opsOf (cs : ι → Ctx) (d : ι) : Net ι → List (Move ι) → List Op
  | _, [] => []
  | s, mv :: l => if mv.who = d then mv.op s :: opsOf cs d (step cs s mv) l else opsOf cs d (step cs s mv) l

theorem node_run (d : ι) (l : List (Move ι)) : ∀ s : Net ι, (run cs l s).node d = runOps (cs d) (opsOf cs d s l) (s.node d) := by
  induction l with
  | nil => intro s; rfl
  | cons mv l ih =>
    intro s
    show (run cs l (step cs s mv)).node d = _
    rw [ih]
    by_cases hd : mv.who = d
    · subst hd
      rw [opsOf, if_pos rfl, node_who]
      rfl
    · rw [opsOf, if_neg hd, node_other s mv (fun e => hd e.symm)]

theorem opsOf_split (d : ι) (l : List (Move ι)) : ∀ (s : Net ι) (l1 l2 : List Op), opsOf cs d s l = l1 ++ l2 → ∃ m1 m2, l = m1 ++ m2 ∧ opsOf cs d s m1 = l1 := by
  induction l with
  | nil =>
    intro s l1 l2 e
    have : l1 = [] := by
      have e : [] = l1 ++ l2 := e
      simpa using (List.append_eq_nil_iff.mp e.symm).1
    exact ⟨[], [], rfl, by rw [this]; rfl⟩
  | cons mv l ih =>
    intro s l1 l2 e
    cases l1 with
    | nil => exact ⟨[], mv :: l, rfl, rfl⟩
    | cons op l1 =>
      by_cases hd : mv.who = d
      · rw [opsOf, if_pos hd] at e
        simp only [List.cons_append, List.cons.injEq] at e
        obtain ⟨m1, m2, e1, e2⟩ := ih _ l1 l2 e.2
        exact ⟨mv :: m1, m2, by rw [e1]; rfl, by rw [opsOf, if_pos hd, e2, e.1]⟩
      · rw [opsOf, if_neg hd] at e
        obtain ⟨m1, m2, e1, e2⟩ := ih _ (op :: l1) l2 e
        exact ⟨mv :: m1, m2, by rw [e1]; rfl, by rw [opsOf, if_neg hd, e2]⟩

theorem timed_opsOf (d : ι) (l : List (Move ι)) : ∀ (s : Net ι) (b : Bool), timed b (opsOf cs d s l) = timed b (callsOf d l) := by
  induction l with
  | nil => intro s b; rfl
  | cons mv l ih =>
    intro s b
    have h := ih (step cs s mv)
    cases mv with
    | call i op =>
      by_cases hd : i = d
      · have e1 : opsOf cs d s (.call i op :: l) = op :: opsOf cs d (step cs s (.call i op)) l := if_pos hd
        have e2 : callsOf d (.call i op :: l) = op :: callsOf d l := List.filterMap_cons_some (by simp [hd])
        rw [e1, e2]
        cases op <;> simp only [timed, h]
      · have e1 : opsOf cs d s (.call i op :: l) = opsOf cs d (step cs s (.call i op)) l := if_neg hd
        have e2 : callsOf d (.call i op :: l) = callsOf d l := List.filterMap_cons_none (by simp [hd])
        rw [e1, e2, h]
    | cycle i dl =>
      by_cases hd : i = d
      · have e1 : opsOf cs d s (.cycle i dl :: l) = Move.op s (.cycle i dl) :: opsOf cs d (step cs s (.cycle i dl)) l := if_pos hd
        have e2 : callsOf d (.cycle i dl :: l) = .process none :: callsOf d l := List.filterMap_cons_some (by simp [hd])
        rw [e1, e2]
        simp only [Move.op, timed, h]
      · have e1 : opsOf cs d s (.cycle i dl :: l) = opsOf cs d (step cs s (.cycle i dl)) l := if_neg hd
        have e2 : callsOf d (.cycle i dl :: l) = callsOf d l := List.filterMap_cons_none (by simp [hd])
        rw [e1, e2, h]

theorem opsOf_ordinary (d : ι) (l : List (Move ι)) : ∀ s : Net ι, (∀ mv ∈ l, mv.ordinary) →
    ∀ op ∈ opsOf cs d s l, (∀ ok, op ≠ .init ok) ∧ op ≠ .startNodeSegmentInit := by
  induction l with
  | nil => intro s _ op hop; cases hop
  | cons mv l ih =>
    intro s ho op hop
    have ih := ih (step cs s mv) fun m hm => ho m (List.mem_cons_of_mem _ hm)
    unfold opsOf at hop
    split at hop
    · rcases List.mem_cons.mp hop with rfl | hop
      · have h := ho mv List.mem_cons_self
        cases mv with
        | call i op => exact ⟨by rintro ok (rfl : op = _); exact h, by rintro (rfl : op = _); exact h⟩
        | cycle i b => exact ⟨fun ok e => (by cases e), fun e => (by cases e)⟩
      · exact ih op hop
    · exact ih op hop

/-! ### C94 -/

theorem ok_run {d : ι} (l : List (Move ι)) : ∀ s : Net ι, (s.node d).tm.ok .main = true → (∀ ok', .call d (.init ok') ∈ l → ok' .main = true) →
    ((run cs l s).node d).tm.ok .main = true := by
  induction l with
  | nil => exact fun s h _ => h
  | cons mv l ih =>
    intro s h hi
    refine ih _ ?_ fun ok' hm => hi ok' (List.mem_cons_of_mem _ hm)
    by_cases hd : d = mv.who
    · subst hd
      rw [node_who]
      by_cases hp : ∃ rx, mv.op s = .process rx
      · obtain ⟨rx, e⟩ := hp
        rw [e]
        exact (congrFun (process_ok _ rx _) _).trans h
      · refine (op_disc (cs mv.who) (mv.op s) _ (fun rx e => hp ⟨rx, e⟩) h fun ok' e => ?_).1
        cases mv with
        | call i op =>
          have e : op = .init ok' := e
          exact hi ok' (by rw [e]; exact List.mem_cons_self)
        | cycle i b => cases e
    · rw [node_other s mv hd]; exact h

theorem joining_begin (hr : Reliable cs) {ok : ι → Tmr → Bool} {ps : ι → Nat → U8} {pre : List (Move ι)} {mv : Move ι} {d : ι} {ν : ι → U8}
    (hok : ok d .main = true) (hi : ∀ ok', .call d (.init ok') ∈ pre → ok' .main = true)
    (hb : ¬looking ((run cs pre (Net.start cs ok ps)).node d)) (hl : looking ((run cs (pre ++ [mv]) (Net.start cs ok ps)).node d))
    (hm : ∀ a, a ≠ d → uses ((run cs (pre ++ [mv]) (Net.start cs ok ps)).node a) (ν a))
    (hs : Settled cs (run cs (pre ++ [mv]) (Net.start cs ok ps))) :
    Joining cs d ν (run cs (pre ++ [mv]) (Net.start cs ok ps)) ∧ ((run cs (pre ++ [mv]) (Net.start cs ok ps)).node d).v.st = .init ∧
      ((run cs (pre ++ [mv]) (Net.start cs ok ps)).node d).v.ist = .probeMaster := by
  have hord := ordered_run hr (pre ++ [mv]) _ (ordered_start hr ok ps)
  have hok0 : ((Net.start cs ok ps).node d).tm.ok .main = true := by
    show (Core.init (cs d) (ok d) (powerUp (ps d))).2.tm.ok .main = true
    rw [init_ok]; exact hok
  have hok1 := ok_run (cs := cs) pre _ hok0 hi
  rw [run_append] at hord hl hm hs ⊢
  change Joining cs d ν (step cs _ mv) ∧ _
  generalize run cs pre (Net.start cs ok ps) = s at *
  change Ordered cs (step cs s mv) at hord
  change looking ((step cs s mv).node d) at hl
  change ∀ a, a ≠ d → uses ((step cs s mv).node a) (ν a) at hm
  change Settled cs (step cs s mv) at hs
  change Joining cs d ν (step cs s mv) ∧ ((step cs s mv).node d).v.st = .init ∧ ((step cs s mv).node d).v.ist = .probeMaster
  have hd : d = mv.who := by
    by_cases hd : d = mv.who
    · exact hd
    · rw [node_other s mv hd] at hl; exact absurd hl hb
  subst hd
  have hst : ((step cs s mv).node mv.who).v.st = .init ∧ ((step cs s mv).node mv.who).v.ist = .probeMaster := by
    rw [node_who] at hl ⊢
    exact begins _ _ _ hb hl
  refine ⟨⟨hord, ?_, hm, ?_, ?_, .inl ⟨hst.1, .inl hst.2⟩⟩, hst⟩
  · refine ok_run (cs := cs) [mv] s hok1 fun ok' hmem => ?_
    have e : mv = .call mv.who (.init ok') := (List.mem_singleton.mp hmem).symm
    exfalso
    rw [node_who, show mv.op s = .init ok' by rw [e]; rfl] at hl
    rcases init_st (cs mv.who) ok' (s.node mv.who) with h | h
    · exact not_of_st (w := (Core.init (cs mv.who) ok' (s.node mv.who)).2) h (by decide) (by decide) hl
    · exact not_of_st (w := (Core.init (cs mv.who) ok' (s.node mv.who)).2) h (by decide) (by decide) hl
  · intro j f hf
    rcases hs j f hf with h | h
    · exact .inl h
    · exact .inr (.inl h)
  · intro a _ haw
    exact absurd (hst.2.symm.trans haw.2.1) (by decide)

/-- C94, the result: nodes with different nicknames, one of which is joined by node `d`, at any time after it began to look for a nickname.  All nodes
keep their nicknames; the node is still looking, or has got the lowest nickname which is free, or has given up since none is free. -/
theorem C94_lowest (hr : Reliable cs) (ok : ι → Tmr → Bool) (ps : ι → Nat → U8) (pre : List (Move ι)) (mv : Move ι) (d : ι) (ν : ι → U8)
    (hok : ok d .main = true) (hi : ∀ ok', .call d (.init ok') ∈ pre → ok' .main = true)
    (hb : ¬looking ((run cs pre (Net.start cs ok ps)).node d)) (hl : looking ((run cs (pre ++ [mv]) (Net.start cs ok ps)).node d))
    (hm : ∀ a, a ≠ d → uses ((run cs (pre ++ [mv]) (Net.start cs ok ps)).node a) (ν a)) (hν : Members d ν)
    (hs : Settled cs (run cs (pre ++ [mv]) (Net.start cs ok ps))) (moves : List (Move ι)) (ho : ∀ mv ∈ moves, mv.ordinary)
    (ht : Timely cs d (run cs (pre ++ [mv]) (Net.start cs ok ps)) moves) :
    (∀ a, a ≠ d → uses ((run cs (pre ++ [mv] ++ moves) (Net.start cs ok ps)).node a) (ν a)) ∧
    (((run cs (pre ++ [mv] ++ moves) (Net.start cs ok ps)).node d).v.st = .init ∨
     (∃ q, uses ((run cs (pre ++ [mv] ++ moves) (Net.start cs ok ps)).node d) q ∧ Lowest (cs d).startProbe d ν q) ∨
     (((run cs (pre ++ [mv] ++ moves) (Net.start cs ok ps)).node d).v.st = .idle ∧ Full (cs d).startProbe d ν)) := by
  have h := joining_run hr hν moves _ (joining_begin hr hok hi hb hl hm hs).1 ho ht
  rw [run_append (pre ++ [mv]) moves]
  refine ⟨h.members, ?_⟩
  rcases h.phase with ⟨hst, -⟩ | ⟨hst, -⟩ | ⟨hst, -⟩ | ⟨hst, hlow⟩ | ⟨hst, hfull⟩
  · exact .inl hst
  · exact .inl hst
  · exact .inl hst
  · exact .inr (.inl ⟨_, ⟨hst, rfl⟩, hlow⟩)
  · exact .inr (.inr ⟨hst, hfull⟩)

/-- C94, the end: after enough cycles with time between them the node has got the lowest nickname which is free, or there is none. -/
theorem C94_joins (hr : Reliable cs) (ok : ι → Tmr → Bool) (ps : ι → Nat → U8) (pre : List (Move ι)) (mv : Move ι) (d : ι) (ν : ι → U8)
    (hok : ok d .main = true) (hi : ∀ ok', .call d (.init ok') ∈ pre → ok' .main = true)
    (hb : ¬looking ((run cs pre (Net.start cs ok ps)).node d)) (hl : looking ((run cs (pre ++ [mv]) (Net.start cs ok ps)).node d))
    (hm : ∀ a, a ≠ d → uses ((run cs (pre ++ [mv]) (Net.start cs ok ps)).node a) (ν a)) (hν : Members d ν)
    (hs : Settled cs (run cs (pre ++ [mv]) (Net.start cs ok ps))) (moves : List (Move ι)) (ho : ∀ mv ∈ moves, mv.ordinary)
    (ht : Timely cs d (run cs (pre ++ [mv]) (Net.start cs ok ps)) moves)
    (hlen : 256 * ((cs d).probeAckTimeout.toNat + 2) + (cs d).initTimeout.toNat + 3 < timed false (callsOf d moves)) :
    (∃ q, uses ((run cs (pre ++ [mv] ++ moves) (Net.start cs ok ps)).node d) q ∧ Lowest (cs d).startProbe d ν q) ∨
     (((run cs (pre ++ [mv] ++ moves) (Net.start cs ok ps)).node d).v.st = .idle ∧ Full (cs d).startProbe d ν) := by
  rcases (C94_lowest hr ok ps pre mv d ν hok hi hb hl hm hν hs moves ho ht).2 with hst | h
  · exfalso
    obtain ⟨hj, h1, h2⟩ := joining_begin hr hok hi hb hl hm hs
    rw [run_append (pre ++ [mv]) moves] at hst
    have hok' := hj.ok
    generalize run cs (pre ++ [mv]) (Net.start cs ok ps) = s at *
    -- the node was looking for a nickname all the time
    have hback : ∀ m1 m2, moves = m1 ++ m2 → looking ((run cs m1 s).node d) := by
      intro m1 m2 e
      refine Decidable.byContradiction fun hn => ?_
      subst e
      have key : ∀ (l : List (Move ι)) (s : Net ι), Joining cs d ν s → (∀ mv ∈ l, mv.ordinary) → Timely cs d s l → ¬looking (s.node d) →
          ¬looking ((run cs l s).node d) := by
        intro l
        induction l with
        | nil => exact fun s _ _ _ h => h
        | cons x l ih =>
          intro s hj ho ht hn
          refine ih _ (joining_step hr hν hj x (ho x List.mem_cons_self) fun b q e => ht [] b l q (by rw [e]; rfl))
            (fun m hm => ho m (List.mem_cons_of_mem _ hm)) (Timely.tail ht) (joined_step hj x (ho x List.mem_cons_self) hn)
      have hj1 := joining_run hr hν m1 s hj (fun m hm => ho m (List.mem_append_left _ hm)) (Timely.init ht)
      have ht2 : Timely cs d (run cs m1 s) m2 := by
        intro l1 b l2 q e
        have := ht (m1 ++ l1) b l2 q (by rw [e]; simp)
        rw [run_append] at this
        exact this
      refine key m2 _ hj1 (fun m hm => ho m (List.mem_append_right _ hm)) ht2 hn (.inl ?_)
      rw [run_append] at hst
      exact hst
    have hb := phi_timed (c := cs d) (hr.tx d) (opsOf cs d s moves) (s.node d) false hok' (opsOf_ordinary d moves s ho) (fun l1 l2 e => by
      obtain ⟨m1, m2, e1, e2⟩ := opsOf_split d moves s l1 l2 e
      have := hback m1 m2 e1
      rw [node_run, e2] at this
      exact this) (fun _ e => absurd (h2.symm.trans e) (by decide))
    rw [timed_opsOf] at hb
    rw [if_neg (by simp)] at hb
    have hphi : phi (cs d) (disc (s.node d)) = 256 * ((cs d).probeAckTimeout.toNat + 2) + (cs d).initTimeout.toNat + 3 := by
      unfold phi
      dsimp only
      rw [if_neg (by show ¬(s.node d).v.st = .preActive; rw [h1]; decide), show (disc (s.node d)).ist = .probeMaster from h2]
    omega
  · exact h

/-! ### Example -/

/-- Node `true` has the nickname 1, `false` begins to look for one in this cycle. -/
def begin : Move Bool := .cycle false true

/-- It probes 1, which is answered, then 2, and takes it. -/
def taking : List (Move Bool) := second.tail ++ [.cycle false false]

def checkTimely : List (Move Bool) → Net Bool → Bool
  | [], _ => true
  | mv :: l, s => (mv.who || !((s.node false).v.st == .init && (s.node false).v.ist == .probeWait && (s.node false).tm.rem .main == 0) ||
        ((unread two s true).isEmpty && (unread two s false).isEmpty)) && checkTimely l (step two s mv)

theorem timely_of_check (l : List (Move Bool)) : ∀ s : Net Bool, checkTimely l s = true → Timely two false s l := by
  induction l with
  | nil => intro s _ l1 b l2 q e; simp at e
  | cons x l ih =>
    intro s h l1 b l2 q e hw hr
    rw [checkTimely, Bool.and_eq_true] at h
    cases l1 with
    | nil =>
      simp only [List.nil_append, List.cons.injEq] at e
      obtain ⟨rfl, -⟩ := e
      have h1 := h.1
      have hw : awaits (s.node false) q := hw
      have hr : (s.node false).tm.rem .main = 0 := hr
      simp only [Move.who, hw.1, hw.2.1, hr, beq_self_eq_true, Bool.and_self, Bool.not_true, Bool.false_or, Bool.and_eq_true, List.isEmpty_iff] at h1
      intro i
      cases i with
      | true => exact h1.1
      | false => exact h1.2
    | cons y l1 =>
      simp only [List.cons_append, List.cons.injEq] at e
      obtain ⟨rfl, e⟩ := e
      exact ih _ h.2 l1 b l2 q e hw hr

/-- The nickname of the other node. -/
def one : Bool → U8 := fun _ => 1

theorem one_members : Members false one :=
  ⟨fun a b ha hb _ => by cases a <;> cases b <;> first | rfl | exact absurd rfl ha | exact absurd rfl hb, fun _ _ => by unfold one; decide⟩

theorem begin_joining : Joining two false one (seg 1 0xFF (first ++ [begin])) := by
  refine (joining_begin two_reliable (d := false) rfl (by simp [first]) (by decide +kernel) (by decide +kernel) ?_ ?_).1
  · intro a ha
    cases a with
    | false => exact absurd rfl ha
    | true => unfold uses; decide +kernel
  · intro i f hf
    have : unread two (seg 1 0xFF (first ++ [begin])) i = [] := by cases i <;> decide +kernel
    rw [show run two (first ++ [begin]) (Net.start two (fun _ => Safety.allOk) (nicks 1 0xFF)) = seg 1 0xFF (first ++ [begin]) from rfl, this] at hf
    cases hf

theorem taking_ordinary : ∀ mv ∈ taking, mv.ordinary := by
  intro mv hmv
  simp only [taking, second, List.tail_cons, List.cons_append, List.nil_append, List.mem_cons, List.not_mem_nil, or_false] at hmv
  rcases hmv with rfl | rfl | rfl | rfl | rfl | rfl | rfl | rfl | rfl | rfl | rfl <;> trivial

theorem taking_timely : Timely two false (seg 1 0xFF (first ++ [begin])) taking := timely_of_check _ _ (by decide +kernel)

/-- Rounds of time and a cycle. -/
def rounds : Nat → List (Move Bool)
  | 0 => []
  | n + 1 => .call false (.tick 1) :: .cycle false true :: rounds n

theorem rounds_ordinary (n : Nat) : ∀ mv ∈ rounds n, mv.ordinary := by
  induction n with
  | zero => intro mv h; cases h
  | succ n ih =>
    intro mv h
    rcases List.mem_cons.mp h with rfl | h
    · trivial
    · rcases List.mem_cons.mp h with rfl | h
      · trivial
      · exact ih mv h

theorem rounds_timed (n : Nat) : timed false (callsOf false (rounds n)) = n := by
  induction n with
  | zero => rfl
  | succ n ih =>
    show (if true then 1 else 0) + timed false (callsOf false (rounds n)) = n + 1
    rw [ih]
    simp [Nat.add_comm]

theorem timed_append (l l' : List Op) : ∀ b, timed false l' ≤ timed b (l ++ l') := by
  have top : ∀ (l : List Op) b, timed b l ≤ timed true l := by
    intro l
    induction l with
    | nil => exact fun b => Nat.le_refl _
    | cons op l ih =>
      intro b
      cases op <;> simp only [timed, Bool.true_or, if_true] <;> first | exact ih _ | (split <;> omega)
  have mono : ∀ (l : List Op) b, timed false l ≤ timed b l := fun l b => by
    cases b with
    | false => exact Nat.le_refl _
    | true => exact top l false
  induction l with
  | nil => exact mono l'
  | cons op l ih =>
    intro b
    cases op <;> simp only [List.cons_append, timed] <;> first | exact ih _ | exact Nat.le_trans (ih false) (Nat.le_add_left _ _)

/-- Nothing happens in time or not after the node has joined. -/
theorem timely_joined {cs : ι → Ctx} (hr : Reliable cs) {d : ι} {ν : ι → U8} (hν : Members d ν) (l : List (Move ι)) : ∀ s : Net ι, Joining cs d ν s →
    ¬looking (s.node d) → (∀ mv ∈ l, mv.ordinary) → Timely cs d s l := by
  induction l with
  | nil => intro s _ _ _ l1 b l2 q e; simp at e
  | cons x l ih =>
    intro s hj hn ho l1 b l2 q e hw hrem
    cases l1 with
    | nil => exact absurd (.inl hw.1) hn
    | cons y l1 =>
      simp only [List.cons_append, List.cons.injEq] at e
      obtain ⟨rfl, e⟩ := e
      have hx := ho x List.mem_cons_self
      exact ih _ (joining_step hr hν hj x hx fun b q _ hw => absurd (.inl hw.1) hn) (joined_step hj x hx hn)
        (fun m hm => ho m (List.mem_cons_of_mem _ hm)) l1 b l2 q e hw hrem

theorem all_timely (n : Nat) : Timely two false (seg 1 0xFF (first ++ [begin])) (taking ++ rounds n) := by
  intro l1 b l2 q e hw hrem
  rcases List.append_eq_append_iff.mp e with ⟨l, e1, e2⟩ | ⟨l, e1, e2⟩
  · -- behind the part in which the node takes the nickname
    have hj := joining_run two_reliable one_members taking _ begin_joining taking_ordinary taking_timely
    have hn : ¬looking ((run two taking (seg 1 0xFF (first ++ [begin]))).node false) := by decide +kernel
    have := timely_joined two_reliable one_members (rounds n) _ hj hn (rounds_ordinary n) l b l2 q e2
    rw [e1, run_append] at hw hrem ⊢
    exact this hw hrem
  · cases l with
    | nil =>
      have hn : ¬looking ((run two taking (seg 1 0xFF (first ++ [begin]))).node false) := by decide +kernel
      rw [List.append_nil] at e1
      rw [← e1] at hw
      exact absurd (.inl hw.1) hn
    | cons x l =>
      simp only [List.cons_append, List.cons.injEq] at e2
      refine taking_timely l1 b l q ?_ hw hrem
      rw [e1, e2.1]

/-- All hypotheses are met by this history of any length; the node gets the nickname 2. -/
example (n : Nat) (hn : 256 * (Ex.ctx.probeAckTimeout.toNat + 2) + Ex.ctx.initTimeout.toNat + 3 < n) :
    (∃ q, uses ((seg 1 0xFF (first ++ [begin] ++ (taking ++ rounds n))).node false) q ∧ Lowest 1 false one q) ∨
      (((seg 1 0xFF (first ++ [begin] ++ (taking ++ rounds n))).node false).v.st = .idle ∧ Full 1 false one) := by
  refine C94_joins two_reliable (fun _ => Safety.allOk) (nicks 1 0xFF) first begin false one rfl (by simp [first]) (by decide +kernel) (by decide +kernel)
    begin_joining.members one_members (fun i f hf => ?_) (taking ++ rounds n) (fun mv hmv => ?_) (all_timely n) ?_
  · have : unread two (seg 1 0xFF (first ++ [begin])) i = [] := by cases i <;> decide +kernel
    rw [show run two (first ++ [begin]) (Net.start two (fun _ => Safety.allOk) (nicks 1 0xFF)) = seg 1 0xFF (first ++ [begin]) from rfl, this] at hf
    cases hf
  · exact (List.mem_append.mp hmv).elim (taking_ordinary mv) (rounds_ordinary n mv)
  · have : callsOf false (taking ++ rounds n) = callsOf false taking ++ callsOf false (rounds n) := List.filterMap_append ..
    rw [this]
    refine Nat.lt_of_lt_of_le ?_ (timed_append _ _ false)
    rw [rounds_timed]
    exact hn

example : uses ((seg 1 0xFF (first ++ [begin] ++ taking)).node false) 2 ∧ uses ((seg 1 0xFF (first ++ [begin] ++ taking)).node true) 1 := by
  unfold uses
  decide +kernel

end Vscp.Network
