/-
Cycles of a node in a segment whose nodes keep their nicknames.
-/
import Verif.Spec.Join
import Verif.Props.Network
import Verif.Props.Probe
import Verif.Props.DiscoveryEnds

namespace Vscp
open M Spec Transport

/-! ### An active node -/

/-- A frame which does not change an active node with nickname `n`. -/
def Harmless (n : U8) (f : Msg) : Prop := f.cls ≠ 0 ∨ f.typ = 2 ∨ f.typ = 7 ∨ f.typ = 39 ∨ (f.typ = 3 ∧ f.oAddr ≠ n)

/-- A frame which such a node sends. -/
def SendsOnly (n : U8) (f : Msg) : Prop := f.cls ≠ 0 ∨ f.typ = 39 ∨ (f.typ = 3 ∧ f.oAddr = n)

theorem framesSent_frames {w w' : W} {t : List Out} (ht : w'.out = w.out ++ t) {f : Msg} (hf : f ∈ framesSent w w') : f ∈ frames t ∧ .tx f true ∈ t := by
  unfold framesSent at hf
  rw [ht, List.drop_left, List.mem_filterMap] at hf
  obtain ⟨o, ho, hm⟩ := hf
  cases o with
  | tx m b =>
    cases b with
    | true =>
      simp only [Option.some.injEq] at hm
      subst hm
      exact ⟨List.mem_filterMap.mpr ⟨_, ho, rfl⟩, ho⟩
    | false => simp at hm
  | _ => simp at hm

theorem frames_events {t : List Out} (h : ∀ o ∈ t, (∃ m b, o = .protoEvent m b) ∨ ∃ m, o = .event m) : frames t = [] := by
  unfold frames
  rw [List.filterMap_eq_nil_iff]
  intro o ho
  rcases h o ho with ⟨m, b, rfl⟩ | ⟨m, rfl⟩ <;> rfl

theorem harmless_handler {c : Ctx} {m : Msg} {w : W} (hm0 : m.cls = 0) (hm : Harmless w.v.nick m) :
    (Core.handleProtocolClassType c m w).2.v.st = w.v.st ∧ (Core.handleProtocolClassType c m w).2.v.nick = w.v.nick ∧
      ∃ t, (Core.handleProtocolClassType c m w).2.out = w.out ++ t ∧ ∀ f ∈ frames t, SendsOnly w.v.nick f := by
  rcases hm with h | h | h | h | ⟨h, hn⟩
  · exact absurd hm0 h
  · rw [handler2 h, Core.handleNewNodeOnline, bind_run, get_run, whenM_run]
    split
    · rw [txVoid_run c 0 3 [] (by decide) w]
      refine ⟨by rw [sent_v], by rw [sent_v], _, sent_out .., ?_⟩
      intro f hf
      simp only [frames, List.filterMap_cons, List.filterMap_nil, List.mem_singleton] at hf
      subst hf
      exact .inr (.inr ⟨rfl, rfl⟩)
    · exact ⟨rfl, rfl, [], by simp, by simp [frames]⟩
  · rw [handlerOther (by rw [h]; decide)]
    exact ⟨rfl, rfl, [], by simp [pure_run], by simp [frames]⟩
  · rw [handlerOther (by rw [h]; decide)]
    exact ⟨rfl, rfl, [], by simp [pure_run], by simp [frames]⟩
  · rw [handler3 h, Core.handleProbeAck, bind_run, get_run, whenM_run, if_neg (fun e => hn e.2.symm)]
    exact ⟨rfl, rfl, [], by simp, by simp [frames]⟩

/-- A cycle of an active node which receives such a frame, or none. -/
theorem member_cycle {c : Ctx} {rx : Option Msg} {w : W} (ha : w.v.st = .active)
    (hr : ∀ m, (readMessage c rx w).1 = some m → Harmless w.v.nick m) :
    uses (Core.process c rx w).2 w.v.nick ∧ ∀ f ∈ framesSent w (Core.process c rx w).2, SendsOnly w.v.nick f := by
  have key : ∀ w1 w2 : W, ∀ t1 t2, w1.out = w.out ++ t1 → frames t1 = [] → w2.out = w1.out ++ t2 → (∀ f ∈ frames t2, SendsOnly w.v.nick f) →
      w2.v.st = .active → w2.v.nick = w.v.nick → Tail c w2 (Core.process c rx w).2 →
      uses (Core.process c rx w).2 w.v.nick ∧ ∀ f ∈ framesSent w (Core.process c rx w).2, SendsOnly w.v.nick f := by
    intro w1 w2 t1 t2 h1 h2 h3 h4 h5 h6 htail
    refine ⟨⟨(htail.steps.same .st (by decide)).trans h5, (htail.steps.same .nick (by decide)).trans h6⟩, fun f hf => ?_⟩
    obtain ⟨t3, ht3, hf3⟩ := htail.sends
    rw [h3, h1, List.append_assoc, List.append_assoc] at ht3
    have := (framesSent_frames ht3 hf).1
    rw [frames_append, h2, List.nil_append, frames_append] at this
    rcases List.mem_append.mp this with h | h
    · exact h4 f h
    · rcases hf3 f h with h | h
      · exact .inl (by rw [h.1]; decide)
      · exact .inr (.inl h.2.1)
  by_cases hex : ∃ m, m.cls = 0 ∧ Takes c rx w m
  · obtain ⟨m, hm0, htk⟩ := hex
    obtain ⟨w1, t1, ht1, ho1, hs, htail⟩ := takes_cycle htk hm0
    have hn1 : w1.v.nick = w.v.nick := hs .nick (by decide)
    have hst1 : w1.v.st = .active := (hs .st (by decide)).trans ha
    obtain ⟨e1, e2, t2, ht2, hf2⟩ := harmless_handler (c := c) (w := w1) hm0 (hn1.symm ▸ hr m htk.2.1)
    rw [hn1] at hf2
    exact key w1 _ t1 t2 ht1 (frames_proto ho1) ht2 hf2 (e1.trans hst1) (e2.trans hn1) htail
  · obtain ⟨w1, t1, ht1, ho1, hs, htail⟩ := other_cycle (c := c) (rx := rx) ha (fun m hm htk => hex ⟨m, hm, htk⟩)
    exact key w1 w1 t1 [] ht1 (frames_events ho1) (by simp) (by simp [frames]) ((hs .st (by decide)).trans ha) (hs .nick (by decide)) htail

/-! ### Calls of the application -/

/-- The call is no transmission of a protocol event. -/
def NoProto (o : Out) : Prop := ∀ m r, o = .tx m r → m.cls ≠ 0

theorem Calls.writeP {c : Ctx} {m : Msg} (hm : m.cls ≠ 0) : Calls NoProto (writeMessage c m) := by
  intro w
  obtain ⟨tp, ub, t, ht, hc⟩ := writeMessage_frame c m w
  rw [ht]
  refine ⟨t, rfl, ?_⟩
  rcases hc with rfl | ⟨rfl, -⟩
  · intro o ho m' r e
    rw [List.mem_singleton] at ho
    subst ho
    cases e
    exact hm
  · simp

theorem Calls.logLoop {c : Ctx} {m : Msg} (hm : m.cls ≠ 0) (id level e : U8) (msg : List U8) : Calls NoProto (Logger.sendLoop c m id level e msg) := by
  induction hn : msg.length using Nat.strongRecOn generalizing e msg with
  | ind n ih =>
    rw [Logger.sendLoop]
    refine .bind (.writeP (by exact hm)) fun status => ?_
    split
    · rename_i h
      exact ih _ (by simp only [List.length_drop] at *; omega) _ _ rfl
    · exact .pure _

theorem Calls.logAny {c : Ctx} (id level : U8) (msg : List U8) : Calls NoProto (Logger.log c id level msg) := by
  refine .bind .get fun _ => .whenM fun _ => .whenM fun _ => .bind (fun w => ?_) fun _ => .pure _
  exact Calls.logLoop (c := c) (m := ⟨3, CLASS_LOG, 1, w.v.nick, c.hardCoded, 0, bytes8 []⟩) (by simp [CLASS_LOG]) id level 0 msg w

/-- An ordinary call changes neither the state of the node nor its nickname, and sends no protocol events. -/
theorem ordinary_op (c : Ctx) {op : Op} (h : ordinary op) (w : W) :
    (stepOp c op w).2.v.st = w.v.st ∧ (stepOp c op w).2.v.nick = w.v.nick ∧ (stepOp c op w).2.v.ist = w.v.ist ∧ (stepOp c op w).2.v.probe = w.v.probe ∧
      (stepOp c op w).2.tm.ok = w.tm.ok ∧ ∀ f ∈ framesSent w (stepOp c op w).2, f.cls ≠ 0 := by
  have hp : ∀ rx, op ≠ .process rx := by rintro rx rfl; exact h
  have h1 := op_same c op hp w .st (by cases op <;> first | exact h.elim | rfl)
  have h2 := op_same c op hp w .nick (by cases op <;> first | exact h.elim | rfl)
  have h3 := op_same c op hp w .init (by cases op <;> first | exact h.elim | rfl)
  have h4 := op_same c op hp w .ok (by cases op <;> first | exact h.elim | rfl)
  refine ⟨h1, h2, h3.1, h3.2, h4, ?_⟩
  have key : Calls NoProto (stepOp c op) := by
    cases op with
    | init ok => exact h.elim
    | process rx => exact h.elim
    | startNodeSegmentInit => exact h.elim
    | restore => exact h.elim
    | tick ms => exact fun w => ⟨[], by simp [stepOp, tickTimers, modify_run], by simp⟩
    | setAlarm v => exact fun w => ⟨[], by rw [List.append_nil]; rfl, by simp⟩
    | setTime v => exact fun w => ⟨[], by rw [List.append_nil]; rfl, by simp⟩
    | enableHeartbeat v => exact fun w => ⟨[], by rw [List.append_nil]; rfl, by simp⟩
    | getTransmitErrors => exact fun w => ⟨[], by rw [List.append_nil]; rfl, by simp⟩
    | loggerEnable v => exact fun w => ⟨[], by rw [List.append_nil]; rfl, by simp⟩
    | loggerLevel v => exact fun w => ⟨[], by rw [List.append_nil]; rfl, by simp⟩
    | sendEvent m => exact .bind (.writeP h) fun _ => .pure _
    | log id level msg => exact .logAny id level msg
    | logUInt32 id level x => exact .logAny id level _
  obtain ⟨t, ht, ho⟩ := key w
  intro f hf
  exact ho _ (framesSent_frames ht hf).2 f true rfl

/-! ### A node looking for a nickname -/

/-- A node gets pre-active only if the segment master answers. -/
theorem preActive_ack {c : Ctx} {rx : Option Msg} {w : W} (h : w.v.st = .init) (hi : w.v.ist = .probeMasterWait)
    (hp : (Core.process c rx w).2.v.st = .preActive) : ∃ m, (readMessage c rx w).1 = some m ∧ ackFrom m 0 := by
  rw [process_init h] at hp
  have hd := disc_pre c rx w
  have hist : (preProcess c rx w).2.v.ist = .probeMasterWait := (congrArg Disc.ist hd).trans hi
  have hst : (preProcess c rx w).2.v.st = .init := (congrArg Disc.st hd).trans h
  rw [← isProbeAckOf_iff]
  generalize (preProcess c rx w).2 = w1 at *
  unfold Core.stateInit at hp
  rw [bind_run, get_run] at hp
  dsimp only at hp
  rw [hist] at hp
  dsimp only at hp
  rw [bind_run, timerRunning_run] at hp
  dsimp only at hp
  by_cases ha : Core.isProbeAckOf (readMessage c rx w).1 Core.MASTER = true
  · exact ha
  · exfalso
    rw [ite_run] at hp
    split at hp
    · rw [setV_run] at hp
      exact absurd (hst.symm.trans hp) (by decide)
    · rw [whenM_run, if_neg ha] at hp
      exact absurd (hst.symm.trans hp) (by decide)

end Vscp

namespace Vscp.Network
open M Spec Transport Net

variable {ι : Type} [DecidableEq ι] {cs : ι → Ctx}

omit [DecidableEq ι] in
/-- What a node sees in a cycle was on the way to it. -/
theorem seen_mem {s : Net ι} (hs : Ordered cs s) {i : ι} {b : Bool} {m : Msg} (h : sees cs s (.cycle i b) = some m) : m ∈ unread cs s i := by
  obtain ⟨q, hq⟩ := hs i
  unfold sees at h
  have h : (readMessage (cs i) (if b then (s.inbox i).head? else none) (s.node i)).1 = some m := h
  rw [(hq.process _).1] at h
  unfold unread
  rw [hq.drain]
  cases q with
  | cons x q =>
    have : x = m := by simpa using h
    subst this
    simp
  | nil =>
    cases b with
    | false => simp at h
    | true =>
      have h : (s.inbox i).head? = some m := by simpa using h
      simpa using List.mem_of_mem_head? h

/-- What is on the way to a node after its move was on the way before, or is no protocol event. -/
theorem unread_who_mem {s : Net ι} (hs : Ordered cs s) (mv : Move ι) (ho : mv.ordinary) {m : Msg}
    (hm : m ∈ unread cs (step cs s mv) mv.who) : m ∈ unread cs s mv.who ∨ m.cls ≠ 0 := by
  obtain ⟨q, hq⟩ := hs mv.who
  have hbox : (step cs s mv).inbox mv.who = mv.rest s := if_pos rfl
  unfold unread at hm ⊢
  rw [hq.drain]
  rw [node_who, hbox] at hm
  cases mv with
  | call i op =>
    have hp : ∀ rx, op ≠ .process rx := by rintro rx rfl; exact ho
    have hi : ∀ ok, op ≠ .init ok := by rintro ok rfl; exact ho
    have hq : Queued (cs i) (s.node i) q := hq
    obtain ⟨ext, he, hq'⟩ := hq.op hp hi
    have hm : m ∈ drain (cs i) (cs i).loopbackNum (stepOp (cs i) op (s.node i)).2 ++ s.inbox i := hm
    rw [hq'.drain] at hm
    rcases List.mem_append.mp hm with hm | hm
    · rcases List.mem_append.mp hm with hm | hm
      · exact .inl (List.mem_append_left _ hm)
      · exact .inr (he m hm)
    · exact .inl (List.mem_append_right _ hm)
  | cycle i b =>
    have hq : Queued (cs i) (s.node i) q := hq
    obtain ⟨-, ext, he, hq'⟩ := hq.process (if b then (s.inbox i).head? else none)
    have hm : m ∈ drain (cs i) (cs i).loopbackNum (Core.process (cs i) (if b then (s.inbox i).head? else none) (s.node i)).2 ++
      (Move.cycle i b).rest s := hm
    rw [hq'.drain] at hm
    have hrest : ∀ m ∈ (Move.cycle i b).rest s, m ∈ s.inbox i := by
      intro m hm
      cases b with
      | false => exact hm
      | true => exact List.mem_of_mem_tail hm
    have hrx : ∀ m ∈ (if b = true then (s.inbox i).head? else none).toList, m ∈ s.inbox i := by
      intro m hm
      cases b with
      | false => simp at hm
      | true => exact List.mem_of_mem_head? (by simpa using hm)
    rcases List.mem_append.mp hm with hm | hm
    · rcases List.mem_append.mp hm with hm | hm
      · split at hm
        · cases hm
        · rcases List.mem_append.mp hm with hm | hm
          · exact .inl (List.mem_append_left _ (List.mem_of_mem_tail hm))
          · exact .inl (List.mem_append_right _ (hrx m hm))
      · exact .inr (he m hm)
    · exact .inl (List.mem_append_right _ (hrest m hm))

end Vscp.Network
