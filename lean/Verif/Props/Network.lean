/-
Property theorems: segments of nodes (C64, C71).
-/
import Verif.Lemmas.Network

namespace Vscp.Network
open M Spec Transport Net

variable {ι : Type} [DecidableEq ι] {cs : ι → Ctx}

/-! ### Queues of a segment -/

theorem run_append (l l' : List (Move ι)) : ∀ s : Net ι, run cs (l ++ l') s = run cs l' (run cs l s) := by
  induction l with
  | nil => intro s; rfl
  | cons mv l ih => intro s; exact ih _

/-- The loopback queues of all nodes are in order. -/
def Ordered (cs : ι → Ctx) (s : Net ι) : Prop := ∀ i, ∃ q, Queued (cs i) (s.node i) q

omit [DecidableEq ι] in
theorem ordered_start (h : Reliable cs) (ok : ι → Tmr → Bool) (ps : ι → Nat → U8) : Ordered cs (Net.start cs ok ps) :=
  fun i => Queued.init (h.lb i) (ok i) (powerUp (ps i))

theorem node_who (s : Net ι) (mv : Move ι) : (step cs s mv).node mv.who = (stepOp (cs mv.who) (mv.op s) (s.node mv.who)).2 := if_pos rfl

theorem node_other (s : Net ι) (mv : Move ι) {j : ι} (h : j ≠ mv.who) : (step cs s mv).node j = s.node j := if_neg h

theorem ordered_step (h : Reliable cs) {s : Net ι} (hs : Ordered cs s) (mv : Move ι) : Ordered cs (step cs s mv) := by
  intro i
  by_cases hi : i = mv.who
  · subst hi
    rw [node_who]
    obtain ⟨q, hq⟩ := hs mv.who
    exact hq.any (h.lb _) _
  · rw [node_other s mv hi]; exact hs i

theorem ordered_run (h : Reliable cs) (l : List (Move ι)) : ∀ s : Net ι, Ordered cs s → Ordered cs (run cs l s) := by
  induction l with
  | nil => exact fun s hs => hs
  | cons mv l ih => exact fun s hs => ih _ (ordered_step h hs mv)

/-- The other nodes get the frames. -/
theorem unread_other (s : Net ι) (mv : Move ι) {j : ι} (h : j ≠ mv.who) :
    unread cs (step cs s mv) j = unread cs s j ++ framesSent (s.node mv.who) ((step cs s mv).node mv.who) := by
  rw [node_who]
  unfold unread
  rw [node_other s mv h]
  show _ ++ (if j = mv.who then _ else _) = _
  rw [if_neg h, List.append_assoc]

/-- A frame stays until the node sees it, or is initialised. -/
theorem unread_who {s : Net ι} (hs : Ordered cs s) (mv : Move ι) (hi : ∀ ok, mv.op s ≠ .init ok) {m : Msg} (hm : m ∈ unread cs s mv.who) :
    sees cs s mv = some m ∨ m ∈ unread cs (step cs s mv) mv.who := by
  obtain ⟨q, hq⟩ := hs mv.who
  have hbox : (step cs s mv).inbox mv.who = mv.rest s := if_pos rfl
  unfold unread at hm ⊢
  rw [hq.drain] at hm
  rw [node_who, hbox]
  by_cases hp : ∃ rx, mv.op s = .process rx
  · obtain ⟨rx, hrx⟩ := hp
    obtain ⟨hread, ext, -, hq'⟩ := hq.process rx
    have hsee : sees cs s mv = q.head?.or rx := by
      unfold sees
      rw [hrx]
      exact hread
    have hnode : (stepOp (cs mv.who) (mv.op s) (s.node mv.who)).2 = (Core.process (cs mv.who) rx (s.node mv.who)).2 := by
      rw [hrx]; rfl
    rw [hnode, hq'.drain, hsee]
    -- what the adapter delivered was on the way, the rest still is
    have hin : ∀ m ∈ s.inbox mv.who, rx = some m ∨ m ∈ mv.rest s := by
      cases mv with
      | call i op => exact fun m hm => .inr hm
      | cycle i deliver =>
        intro m hm
        cases deliver with
        | false => exact .inr hm
        | true =>
          have e : rx = (s.inbox i).head? := by
            have : Op.process ((s.inbox i).head?) = .process rx := hrx
            injection this with this
            exact this.symm
          show _ ∨ m ∈ (s.inbox i).tail
          have hm : m ∈ s.inbox i := hm
          revert hm
          rw [e]
          cases s.inbox i with
          | nil => intro hm; cases hm
          | cons x l =>
            intro hm
            rcases List.mem_cons.mp hm with rfl | hm
            · exact .inl rfl
            · exact .inr hm
    cases q with
    | nil =>
      rcases List.mem_append.mp hm with hm | hm
      · cases hm
      · rcases hin m hm with h | h
        · exact .inl (by simp [h])
        · exact .inr (List.mem_append_right _ h)
    | cons x q =>
      rw [if_neg (by simp)]
      rcases List.mem_append.mp hm with hm | hm
      · rcases List.mem_cons.mp hm with rfl | hm
        · exact .inl rfl
        · exact .inr (by simp [hm])
      · rcases hin m hm with h | h
        · exact .inr (by simp [h])
        · exact .inr (List.mem_append_right _ h)
  · have hp : ∀ rx, mv.op s ≠ .process rx := fun rx e => hp ⟨rx, e⟩
    obtain ⟨ext, -, hq'⟩ := hq.op hp hi
    rw [hq'.drain]
    right
    have hrest : mv.rest s = s.inbox mv.who := by
      cases mv with
      | call i op => rfl
      | cycle i d => exact absurd rfl (hp _)
    rw [hrest]
    rcases List.mem_append.mp hm with hm | hm
    · exact List.mem_append_left _ (List.mem_append_left _ hm)
    · exact List.mem_append_right _ hm

/-- Every frame a node has not seen stays on the way, unless it is the one which moves. -/
theorem unread_keep (s : Net ι) (mv : Move ι) {j : ι} (h : j ≠ mv.who) {m : Msg} (hm : m ∈ unread cs s j) : m ∈ unread cs (step cs s mv) j := by
  rw [unread_other s mv h]; exact List.mem_append_left _ hm

theorem unread_new (s : Net ι) (mv : Move ι) {j : ι} (h : j ≠ mv.who) {m : Msg}
    (hm : m ∈ framesSent (s.node mv.who) ((step cs s mv).node mv.who)) : m ∈ unread cs (step cs s mv) j := by
  rw [unread_other s mv h]; exact List.mem_append_right _ hm

/-- The move is a cycle if the node sees an event. -/
theorem sees_process {s : Net ι} {mv : Move ι} {m : Msg} (h : sees cs s mv = some m) :
    ∃ rx, mv.op s = .process rx ∧ (readMessage (cs mv.who) rx (s.node mv.who)).1 = some m ∧
      (step cs s mv).node mv.who = (Core.process (cs mv.who) rx (s.node mv.who)).2 := by
  unfold sees at h
  split at h
  · rename_i rx hrx
    exact ⟨rx, hrx, h, by rw [node_who, hrx]; rfl⟩
  · cases h

/-- An active node answers a probe of its nickname. -/
theorem answers (hr : Reliable cs) {s : Net ι} {mv : Move ι} {m : Msg} {q : U8} (hu : uses (s.node mv.who) q) (h : sees cs s mv = some m)
    (hm : IsProbe m q) : ∃ f, IsAck f q ∧ f ∈ framesSent (s.node mv.who) ((step cs s mv).node mv.who) := by
  obtain ⟨rx, -, hread, hnode⟩ := sees_process h
  have ht : Takes (cs mv.who) rx (s.node mv.who) m := ⟨hu.1, hread, hr.proto _ _⟩
  obtain ⟨t1, t2, ho, -, -⟩ := States.C30_answers ht (States.payload_of_size hm.2.2.1 (hm.2.2.2.trans hu.2.symm) hm.1 hm.2.1)
  refine ⟨event (cs mv.who) (s.node mv.who).v.nick 0 3 [], ?_, ?_⟩
  · rw [← hu.2]; exact isAck_event _ _ _
  rw [hnode]
  refine framesSent_mem (t := t1 ++ [.tx (event (cs mv.who) (s.node mv.who).v.nick 0 3 []) true] ++ t2) ?_ (by simp)
  rw [ho, hr.tx]
  simp

/-! ### C71 -/

/-- Two nodes which use the same nickname are going to notice it. -/
def Notices (cs : ι → Ctx) (s : Net ι) (i j : ι) (q : U8) : Prop := ∃ m, (IsProbe m q ∨ IsAck m q) ∧ (m ∈ unread cs s i ∨ m ∈ unread cs s j)

omit [DecidableEq ι] in
theorem Notices.symm {s : Net ι} {i j : ι} {q : U8} (h : Notices cs s i j q) : Notices cs s j i q := by
  obtain ⟨m, h1, h2⟩ := h
  exact ⟨m, h1, h2.symm⟩

/-- The move of one of the two nodes. -/
theorem notices_who (hr : Reliable cs) {s : Net ι} (ho : Ordered cs s) (mv : Move ι) {j : ι} (hj : j ≠ mv.who) {q : U8} (hq : q ≠ 0xFF)
    (hset : ∀ m, sees cs s mv = some m → m.cls = 0 → m.typ = 6 → (s.node mv.who).v.st ≠ .active)
    (hi : uses ((step cs s mv).node mv.who) q)
    (h : uses (s.node mv.who) q → Notices cs s mv.who j q) : Notices cs (step cs s mv) mv.who j q := by
  by_cases hact : (s.node mv.who).v.st = .active
  · have hk : Keeps (s.node mv.who).v.nick ((step cs s mv).node mv.who) := by
      by_cases hp : ∃ rx, mv.op s = .process rx
      · obtain ⟨rx, hrx⟩ := hp
        rw [node_who, hrx]
        refine Keeps.cycle hact fun m hm h06 => hset m ?_ h06.1 h06.2 hact
        unfold sees
        rw [hrx]
        exact hm
      · rw [node_who]
        exact Keeps.op (fun rx e => hp ⟨rx, e⟩) _
    have hn : (s.node mv.who).v.nick = q := by
      rcases hk hi.1 with h | h
      · exact h.symm.trans hi.2
      · exact absurd (hi.2.symm.trans h) hq
    obtain ⟨m, hm, hu | hu⟩ := h ⟨hact, hn⟩
    · have hin : ∀ ok, mv.op s ≠ .init ok := by
        intro ok e
        have := hi.1
        rw [node_who, e] at this
        rcases Discovery.init_st (cs mv.who) ok (s.node mv.who) with h | h <;> rw [show (stepOp (cs mv.who) (.init ok) (s.node mv.who)).2 =
          (Core.init (cs mv.who) ok (s.node mv.who)).2 from rfl, h] at this <;> cases this
      rcases unread_who ho mv hin hu with hs | hs
      · rcases hm with hm | hm
        · obtain ⟨f, hf, hsent⟩ := answers hr ⟨hact, hn⟩ hs hm
          exact ⟨f, .inr hf, .inr (unread_new s mv hj hsent)⟩
        · exfalso
          obtain ⟨rx, -, hread, hnode⟩ := sees_process hs
          have := ack_leaves (c := cs mv.who) (rx := rx) ⟨hact, hread, hr.proto _ _⟩ (hn.symm ▸ hm)
          rw [← hnode, hi.1] at this
          cases this
      · exact ⟨m, hm, .inl hs⟩
    · exact ⟨m, hm, .inr (unread_keep s mv hj hu)⟩
  · have hp : ∃ rx, mv.op s = .process rx := by
      by_cases hp : ∃ rx, mv.op s = .process rx
      · exact hp
      · have := op_notActive (c := cs mv.who) (fun rx e => hp ⟨rx, e⟩) hact
        rw [← node_who, hi.1] at this
        exact absurd rfl this
    obtain ⟨rx, hrx⟩ := hp
    have e : (step cs s mv).node mv.who = (Core.process (cs mv.who) rx (s.node mv.who)).2 := by rw [node_who, hrx]; rfl
    obtain ⟨t, ht, hm⟩ := cycle_announces (hr.tx mv.who) hact (e ▸ hi.1)
    refine ⟨_, .inl (isProbe_event (cs mv.who) q 0 q), .inr (unread_new s mv hj ?_)⟩
    have hq' : (Core.process (cs mv.who) rx (s.node mv.who)).2.v.nick = q := e ▸ hi.2
    rw [hq'] at hm
    rw [e]
    exact framesSent_mem ht hm

/-- No move assigns a nickname to an active node. -/
def Unassigned (cs : ι → Ctx) (s : Net ι) (moves : List (Move ι)) : Prop :=
  ∀ pre mv post, moves = pre ++ mv :: post → ∀ m, sees cs (run cs pre s) mv = some m → m.cls = 0 → m.typ = 6 →
    ((run cs pre s).node mv.who).v.st ≠ .active

theorem notices_run (hr : Reliable cs) (moves : List (Move ι)) : ∀ s : Net ι, Ordered cs s → Unassigned cs s moves →
    (∀ i j q, i ≠ j → q ≠ 0xFF → uses (s.node i) q → uses (s.node j) q → Notices cs s i j q) →
    ∀ i j q, i ≠ j → q ≠ 0xFF → uses ((run cs moves s).node i) q → uses ((run cs moves s).node j) q → Notices cs (run cs moves s) i j q := by
  induction moves with
  | nil => exact fun s _ _ h => h
  | cons mv moves ih =>
    intro s ho hset h
    refine ih _ (ordered_step hr ho mv) (fun pre mv' post e m => hset (mv :: pre) mv' post (by rw [e]; rfl) m) ?_
    intro i j q hij hq hui huj
    by_cases hi : i = mv.who
    · subst hi
      have hj : j ≠ mv.who := fun e => hij e.symm
      rw [node_other s mv hj] at huj
      exact notices_who hr ho mv hj hq (hset [] mv moves rfl) hui fun hu => h _ _ q hij hq hu huj
    · by_cases hj : j = mv.who
      · subst hj
        rw [node_other s mv hi] at hui
        exact (notices_who hr ho mv hi hq (hset [] mv moves rfl) huj fun hu => h _ _ q (Ne.symm hij) hq hu hui).symm
      · rw [node_other s mv hi] at hui
        rw [node_other s mv hj] at huj
        obtain ⟨m, hm, hu | hu⟩ := h i j q hij hq hui huj
        · exact ⟨m, hm, .inl (unread_keep s mv hi hu)⟩
        · exact ⟨m, hm, .inr (unread_keep s mv hj hu)⟩

/-- C71: in a segment of any number of nodes, whatever the nodes and other participants do and whenever, no two active nodes have the same nickname
when all frames have been seen, provided that no nickname is assigned to an active node (C33: the nickname 0xFF is the one of nodes whose
factory settings were restored). -/
theorem C71_no_duplicates (hr : Reliable cs) (ok : ι → Tmr → Bool) (ps : ι → Nat → U8) (moves : List (Move ι))
    (hset : Unassigned cs (Net.start cs ok ps) moves) (hs : silent cs (run cs moves (Net.start cs ok ps))) {i j : ι} {q : U8} (hij : i ≠ j)
    (hi : uses ((run cs moves (Net.start cs ok ps)).node i) q) (hj : uses ((run cs moves (Net.start cs ok ps)).node j) q) : q = 0xFF := by
  by_cases hq : q = 0xFF
  · exact hq
  · obtain ⟨m, -, hm | hm⟩ := notices_run hr moves _ (ordered_start hr ok ps) hset (fun i j q _ _ h => by
      have := h.1
      exfalso
      rcases Discovery.init_st (cs i) (ok i) (powerUp (ps i)) with h | h <;> rw [show ((Net.start cs ok ps).node i) =
        (Core.init (cs i) (ok i) (powerUp (ps i))).2 from rfl, h] at this <;> cases this) i j q hij hq hi hj
    · rw [hs] at hm; cases hm
    · rw [hs] at hm; cases hm

/-! ### C64 -/

/-- The node `d` waits for an answer: its probe is on the way to the node which has the nickname, or the answer is on the way back. -/
def Asked (cs : ι → Ctx) (s : Net ι) (d a : ι) (q : U8) : Prop :=
  (∃ m, IsProbe m q ∧ m ∈ unread cs s a) ∨ ∃ m, IsAck m q ∧ m ∈ unread cs s d

theorem asked_step (hr : Reliable cs) {s : Net ι} (ho : Ordered cs s) (mv : Move ι) {d a : ι} (hd : d ≠ a) {q : U8}
    (hu : uses (s.node a) q) (hu' : uses ((step cs s mv).node a) q) (h : awaits (s.node d) q → Asked cs s d a q)
    (hw : awaits ((step cs s mv).node d) q) : Asked cs (step cs s mv) d a q := by
  by_cases hda : d = mv.who
  · subst hda
    have ha : a ≠ mv.who := fun e => hd e.symm
    have keep : awaits (s.node mv.who) q → (∀ m, sees cs s mv = some m → ¬IsAck m q) → (∀ ok, mv.op s ≠ .init ok) →
        Asked cs (step cs s mv) mv.who a q := by
      intro hw hn hi
      rcases h hw with ⟨m, hm, hmu⟩ | ⟨m, hm, hmu⟩
      · exact .inl ⟨m, hm, unread_keep s mv ha hmu⟩
      · rcases unread_who ho mv hi hmu with hs | hs
        · exact absurd hm (hn m hs)
        · exact .inr ⟨m, hm, hs⟩
    by_cases hp : ∃ rx, mv.op s = .process rx
    · obtain ⟨rx, hrx⟩ := hp
      have e : (step cs s mv).node mv.who = (Core.process (cs mv.who) rx (s.node mv.who)).2 := by rw [node_who, hrx]; rfl
      rcases cycle_awaits (hr.tx mv.who) (e ▸ hw) with ⟨h1, h2⟩ | ⟨f, hf, hm⟩
      · refine keep h1 (fun m hs => ?_) fun ok e => by rw [hrx] at e; cases e
        unfold sees at hs
        rw [hrx] at hs
        exact h2 m hs
      · exact .inl ⟨f, hf, unread_new s mv ha (by rw [e]; exact hm)⟩
    · have hp : ∀ rx, mv.op s ≠ .process rx := fun rx e => hp ⟨rx, e⟩
      rw [node_who] at hw
      obtain ⟨h1, h2⟩ := op_awaits hp hw
      refine keep h1 (fun m hs => ?_) h2
      obtain ⟨rx, hrx, -⟩ := sees_process hs
      exact absurd hrx (hp rx)
  · rw [node_other s mv hda] at hw
    rcases h hw with ⟨m, hm, hmu⟩ | ⟨m, hm, hmu⟩
    · by_cases ha : a = mv.who
      · subst ha
        have hin : ∀ ok, mv.op s ≠ .init ok := by
          intro ok e
          have := hu'.1
          rw [node_who, e] at this
          rcases Discovery.init_st (cs mv.who) ok (s.node mv.who) with h | h <;> rw [show (stepOp (cs mv.who) (.init ok) (s.node mv.who)).2 =
            (Core.init (cs mv.who) ok (s.node mv.who)).2 from rfl, h] at this <;> cases this
        rcases unread_who ho mv hin hmu with hs | hs
        · obtain ⟨f, hf, hsent⟩ := answers hr hu hs hm
          exact .inr ⟨f, hf, unread_new s mv hda hsent⟩
        · exact .inl ⟨m, hm, hs⟩
      · exact .inl ⟨m, hm, unread_keep s mv ha hmu⟩
    · exact .inr ⟨m, hm, unread_keep s mv hda hmu⟩

theorem asked_run (hr : Reliable cs) {d a : ι} (hd : d ≠ a) {q : U8} (moves : List (Move ι)) : ∀ s : Net ι, Ordered cs s →
    (∀ pre post, moves = pre ++ post → uses ((run cs pre s).node a) q) → (awaits (s.node d) q → Asked cs s d a q) →
    awaits ((run cs moves s).node d) q → Asked cs (run cs moves s) d a q := by
  induction moves with
  | nil => exact fun s _ _ h => h
  | cons mv moves ih =>
    intro s ho hu h
    exact ih _ (ordered_step hr ho mv) (fun pre post e => hu (mv :: pre) post (by rw [e]; rfl))
      (asked_step hr ho mv hd (hu [] _ rfl) (hu [mv] moves rfl) h)

/-- C64: a node which looks for a nickname does not take the one of a node which had it when the first probe for it was sent and still has it, if
all frames (the probe, the answer) have been seen when the node decides.  Missing: two nodes which look for a nickname at the same time, see
`C64_violated`. -/
theorem C64_distinct_partial (hr : Reliable cs) (ok : ι → Tmr → Bool) (ps : ι → Nat → U8) (pre moves : List (Move ι)) {d a : ι} (hd : d ≠ a)
    {q : U8} (hw : ¬awaits ((run cs pre (Net.start cs ok ps)).node d) q)
    (hu : ∀ l l', moves = l ++ l' → uses ((run cs (pre ++ l) (Net.start cs ok ps)).node a) q)
    (hs : silent cs (run cs (pre ++ moves) (Net.start cs ok ps))) (hi : ((run cs (pre ++ moves) (Net.start cs ok ps)).node d).v.st = .init)
    (mv : Move ι) (hmv : mv.who = d) : ¬uses ((run cs (pre ++ moves ++ [mv]) (Net.start cs ok ps)).node d) q := by
  intro h
  have ho := ordered_run hr pre _ (ordered_start hr ok ps)
  rw [run_append] at h
  have hu' : ∀ l l', moves = l ++ l' → uses ((run cs l (run cs pre (Net.start cs ok ps))).node a) q := fun l l' e => by
    rw [← run_append]; exact hu l l' e
  have hask := asked_run hr hd moves _ ho hu' (fun e => absurd e hw)
  rw [← run_append] at hask
  generalize run cs (pre ++ moves) (Net.start cs ok ps) = s at *
  have hnot : ¬awaits (s.node d) q := by
    intro e
    rcases hask e with ⟨m, -, hm⟩ | ⟨m, -, hm⟩ <;> rw [hs] at hm <;> cases hm
  subst hmv
  have h : uses ((step cs s mv).node mv.who) q := h
  have hne : (s.node mv.who).v.st ≠ .active := by rw [hi]; decide
  by_cases hp : ∃ rx, mv.op s = .process rx
  · obtain ⟨rx, hrx⟩ := hp
    have e : (step cs s mv).node mv.who = (Core.process (cs mv.who) rx (s.node mv.who)).2 := by rw [node_who, hrx]; rfl
    rw [e] at h
    by_cases hpw : (s.node mv.who).v.ist = .probeWait ∧ (disc (s.node mv.who)).running = false
    · rcases cycle_probeWait (cs mv.who) rx (s.node mv.who) hi hpw.1 with ⟨-, -, hn, -⟩ | ⟨hb, -⟩
      · exact hnot ⟨hi, hpw.1, hn.symm.trans h.2⟩
      · rw [hpw.2] at hb; cases hb
    · exact (Nickname.init_nick (cs mv.who) rx (s.node mv.who) hi fun h1 => by
        cases hb : (disc (s.node mv.who)).running with
        | true => rfl
        | false => exact absurd ⟨h1, hb⟩ hpw).2 h.1
  · refine op_notActive (c := cs mv.who) (fun rx e => hp ⟨rx, e⟩) hne ?_
    rw [← node_who]; exact h.1

/-! ### Two nodes -/

/-- Two equal nodes. -/
def two : Bool → Ctx := fun _ => Ex.ctx

/-- Their memories: nodes with these nicknames. -/
def nicks (a b : U8) : Bool → Nat → U8 := fun i x => if x = 1 then (if i then a else b) else Safety.mem 0x60 x

/-- The segment after these moves. -/
def seg (a b : U8) (moves : List (Move Bool)) : Net Bool := run two moves (Net.start two (fun _ => Safety.allOk) (nicks a b))

theorem two_reliable : Reliable two := by
  refine ⟨fun _ _ => rfl, fun _ _ h => ?_, fun _ _ => show LoopbackCfg Ex.ctx.toCfg from ⟨by decide, by decide, by decide⟩⟩
  cases h

/-- Both nodes look for a nickname at the same time and probe 1.  The first one takes it, and announces it while the other one still waits. -/
def simultaneous : List (Move Bool) :=
  [.cycle true false, .cycle false false, .cycle true false, .cycle false false, .call true (.tick 1000), .call false (.tick 1000),
   .cycle true true, .cycle false true, .cycle true false, .cycle false false, .cycle true true, .cycle false true, .call true (.tick 2000),
   .call false (.tick 1999), .cycle true true, .cycle false true, .call false (.tick 1)]

/-- C64 does not hold in general: all frames have been seen, one node uses the nickname 1, and the other one takes it as well. -/
theorem C64_violated : silent two (seg 0xFF 0xFF simultaneous) ∧ uses ((seg 0xFF 0xFF simultaneous).node true) 1 ∧
    ((seg 0xFF 0xFF simultaneous).node false).v.st = .init ∧
    uses ((seg 0xFF 0xFF (simultaneous ++ [.cycle false true])).node false) 1 ∧
    uses ((seg 0xFF 0xFF (simultaneous ++ [.cycle false true])).node true) 1 := by
  unfold silent uses
  decide +kernel

/-- The duplicate is noticed (C71): the announcement is answered, and the second node looks for another nickname. -/
example : uses ((seg 0xFF 0xFF (simultaneous ++ [.cycle false true, .cycle true true, .cycle false true])).node true) 1 ∧
    ((seg 0xFF 0xFF (simultaneous ++ [.cycle false true, .cycle true true, .cycle false true])).node false).v.st = .init := by
  unfold uses
  decide +kernel

/-- A node with the nickname 1 starts. -/
def first : List (Move Bool) := [.cycle true false]

/-- The other one looks for a nickname.  It probes 1, which is answered, and then 2. -/
def second : List (Move Bool) :=
  [.cycle false true, .cycle false false, .cycle true true, .call false (.tick 1000), .cycle false true, .cycle false false, .cycle true true, .cycle false true,
   .cycle false false, .cycle true true, .call false (.tick 2000)]

/-- Such a run meets the hypotheses of `C64_distinct_partial`; the node takes the nickname 2. -/
example : ¬awaits ((seg 1 0xFF first).node false) 1 ∧ (∀ n ≤ second.length, uses ((seg 1 0xFF (first ++ second.take n)).node true) 1) ∧
    silent two (seg 1 0xFF (first ++ second)) ∧ ((seg 1 0xFF (first ++ second)).node false).v.st = .init ∧
    awaits ((seg 1 0xFF (first ++ second)).node false) 2 ∧ awaits ((seg 1 0xFF (first ++ second.take 6)).node false) 1 ∧
    uses ((seg 1 0xFF (first ++ second ++ [.cycle false false])).node false) 2 := by
  unfold silent uses awaits
  decide +kernel

/-- No nickname is assigned in these moves. -/
def checkUnassigned : List (Move Bool) → Net Bool → Bool
  | [], _ => true
  | mv :: l, s => (match sees two s mv with
    | some m => !(m.cls == 0 && m.typ == 6)
    | none => true) && checkUnassigned l (step two s mv)

theorem unassigned_of_check (l : List (Move Bool)) : ∀ s : Net Bool, checkUnassigned l s = true → Unassigned two s l := by
  induction l with
  | nil => intro s _ pre mv post e; simp at e
  | cons x l ih =>
    intro s h pre mv post e m hm hc ht
    rw [checkUnassigned, Bool.and_eq_true] at h
    cases pre with
    | nil =>
      simp only [List.nil_append, List.cons.injEq] at e
      obtain ⟨rfl, -⟩ := e
      have h1 := h.1
      rw [show run two [] s = s from rfl] at hm
      rw [hm] at h1
      simp [hc, ht] at h1
    | cons y pre =>
      simp only [List.cons_append, List.cons.injEq] at e
      obtain ⟨rfl, e⟩ := e
      exact ih _ h.2 pre mv post e m hm hc ht

/-- The run with the duplicate and its resolution, then the second node takes 2: all hypotheses of `C71_no_duplicates` but the
equality of the nicknames are met. -/
def resolved : List (Move Bool) :=
  simultaneous ++ [.cycle false true, .cycle true true, .cycle false true, .cycle false false, .cycle true true, .call false (.tick 1000), .cycle false true,
    .cycle false false, .cycle true true, .cycle false true, .cycle false false, .cycle true true, .call false (.tick 2000), .cycle false true, .cycle true true]

example : Unassigned two (Net.start two (fun _ => Safety.allOk) (nicks 0xFF 0xFF)) resolved ∧ silent two (seg 0xFF 0xFF resolved) ∧
    uses ((seg 0xFF 0xFF resolved).node true) 1 ∧ uses ((seg 0xFF 0xFF resolved).node false) 2 := by
  refine ⟨unassigned_of_check _ _ (by decide +kernel), ?_⟩
  unfold silent uses
  decide +kernel

/-- The exception: two active nodes whose factory settings were restored. -/
example : Unassigned two (Net.start two (fun _ => Safety.allOk) (nicks 1 2)) [.cycle true false, .cycle false true, .cycle true true, .call true .restore, .call false .restore] ∧
    silent two (seg 1 2 [.cycle true false, .cycle false true, .cycle true true, .call true .restore, .call false .restore]) ∧
    uses ((seg 1 2 [.cycle true false, .cycle false true, .cycle true true, .call true .restore, .call false .restore]).node true) 0xFF ∧
    uses ((seg 1 2 [.cycle true false, .cycle false true, .cycle true true, .call true .restore, .call false .restore]).node false) 0xFF := by
  refine ⟨unassigned_of_check _ _ (by decide +kernel), ?_⟩
  unfold silent uses
  decide +kernel

end Vscp.Network
