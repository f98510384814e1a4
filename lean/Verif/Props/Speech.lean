/-
Property theorems: a node sends nothing without a reason (C118).
-/
import Verif.Spec.Speech
import Verif.Lemmas.Types
import Verif.Props.Time
import Verif.Props.Wear
import Verif.Props.LoggerExact

namespace Vscp.Speech
open M Spec Transport Safety Discovery

/-- A call which is no transmission, or one of a frame with `P`. -/
def Only (P : Msg → Prop) (o : Out) : Prop := ∀ f ok, o = .tx f ok → P f

theorem Only.of_silent {c : Ctx} {α : Type} {A : List Act} {P : Msg → Prop} {x : M α} (hf : Foot c True A x) (h : A.all Act.silent = true) :
    Calls (Only P) x :=
  (Calls.silent (T := []) hf h).mono fun o ho f ok e => by have := (ho.1 f ok e).2; simp at this

/-- The frames of the handler of an event. -/
theorem handler_frames {c : Ctx} {m : Msg} :
    Calls (Only fun f => f.cls = 0 ∧ f.typ ∈ responses m.typ) (Core.handleProtocolClassType c m) := by
  by_cases h12 : m.typ = 12
  · rw [handler12 h12, h12]
    have htx : Calls (Only fun f => f.cls = 0 ∧ f.typ ∈ responses 12) (Core.txVoid c 3 14 [0]) :=
      (Calls.txVoid (T := responses 12) (by decide)).mono fun o ho f ok e => ho.1 f ok e
    refine .bind .get fun _ => .whenM fun _ => .ite (fun _ => ?_) fun _ => htx
    refine .bind (Only.of_silent (A := []) (.guidRead _) rfl) fun _ => .bind (Only.of_silent (A := []) (.guidRead _) rfl) fun _ =>
      .bind (Only.of_silent (A := []) (.guidRead _) rfl) fun _ => .bind (Only.of_silent (A := []) (.guidRead _) rfl) fun _ => .ite (fun _ => htx) fun _ =>
      .bind (Only.of_silent (A := [Act.st .idle, .idleEntered]) (.changeToStateIdle (by decide)) rfl) fun _ => .bind ?_ fun _ =>
      .emit (fun _ _ e => by cases e)
    exact fun w => ⟨[.psW (Ps.addrBootFlag c) 0xBB], rfl, by simp [Only]⟩
  · exact (Calls.handler h12).mono fun o ho f ok e => ho.1 f ok e

theorem responses_answers (t r : U8) (h : r ∈ responses t) : (t, r) ∈ answers := by
  revert h
  unfold responses
  split <;> rename_i e <;> intro h <;> (try simp only [List.mem_singleton, List.not_mem_nil] at h)
  all_goals first
    | (rw [h, show t = BitVec.ofNat 8 t.toNat by simp, e]; decide)
    | exact h.elim

/-- Every type which is answered is addressed to one node, or it is the probe. -/
theorem answers_addressed {t r : U8} (h : (t, r) ∈ answers) : t = 2 ∨ t ∈ addressed := by
  have : ∀ p ∈ answers, p.1 = 2 ∨ p.1 ∈ addressed := by decide
  exact this _ h

/-- The steps, other than those of an extended page read, leave it as it is or end it. -/
theorem ext_steps {c : Ctx} {A : List Act} {w w' : W} (hs : Steps c True A w w') (h : A.all (fun a => a == .restore || !a.touches .ext) = true) :
    w'.v.ext = w.v.ext ∨ w'.v.ext.count = 0 := by
  refine hs.rel (R := fun w w' => w'.v.ext = w.v.ext ∨ w'.v.ext.count = 0) (fun _ => .inl rfl) ?_ ?_
  · rintro w w' w'' h1 (h2 | h2)
    · rw [h2]; exact h1
    · exact .inr h2
  · intro a ha w w' hst
    have h1 := List.all_eq_true.mp h a ha
    rw [Bool.or_eq_true] at h1
    rcases h1 with h1 | h1
    · have := eq_of_beq h1
      subst this
      simp only [Step] at hst
      rw [hst, restore_run]
      exact .inr rfl
    · exact .inl (by simpa only [Comp.same] using hst.same .ext (by simpa using h1))

theorem handler_ext {c : Ctx} {m : Msg} (h : m.typ ≠ 37) (w : W) : (Core.handleProtocolClassType c m w).2.v.ext = w.v.ext ∨
    (Core.handleProtocolClassType c m w).2.v.ext.count = 0 := by
  refine ext_steps (Foot.handlerType w) ?_
  by_cases hm : m.typ.toNat ∈ [1, 2, 3, 6, 8, 9, 11, 12, 23, 24, 25, 29, 30, 31, 33, 38]
  · have : ∀ t ∈ [1, 2, 3, 6, 8, 9, 11, 12, 23, 24, 25, 29, 30, 31, 33, 38], (typeActs t).all (fun a => a == .restore || !a.touches .ext) = true := by decide
    exact this _ hm
  · have h37 : m.typ.toNat ≠ 37 := fun e => h (ofToNat e rfl)
    have : typeActs m.typ.toNat = [] := by
      simp only [List.mem_cons, List.not_mem_nil, or_false, not_or] at hm
      unfold typeActs
      split <;> simp_all
    rw [this]; rfl

theorem frame_mem {t : List Out} {f : Msg} {ok : Bool} (h : .tx f ok ∈ t) : f ∈ frames t := by
  unfold frames
  exact List.mem_filterMap.mpr ⟨_, h, rfl⟩

theorem made_of {c : Ctx} {rx : Option Msg} {w : W} {t : List Out} (h : (Core.process c rx w).2.out = w.out ++ t) : madeBy c rx w = t := by
  show (Core.process c rx w).2.out.drop w.out.length = t
  rw [h, List.drop_left]

/-- A cycle of an active node. -/
theorem active_reason {c : Ctx} {rx : Option Msg} {w : W} {f : Msg} {ok : Bool} (ha : w.v.st = .active) (hf : .tx f ok ∈ madeBy c rx w) :
    Reason c rx w f := by
  by_cases hb : f.cls = 20 ∧ f.typ = 9
  · obtain ⟨w1, t1, t2, -, -, -, hm, hn1, hn2⟩ := Time.active_calls (c := c) (rx := rx) ha
    rw [hm] at hf
    have hno : ¬ NoBeat (.tx f ok) := by simp [NoBeat, isHeartbeat, hb]
    simp only [List.mem_append] at hf
    rcases hf with (hf | hf) | hf
    · exact absurd (hn1 _ hf) hno
    · split at hf
      · rename_i hd
        have hd' := (Time.due_iff c w).mp hd
        refine .heartbeat ha hd'.1 hd'.2.1 ?_ hd'.2.2 hb
        cases hc : c.customHb with
        | false => rfl
        | true => rw [if_pos hc] at hf; simp at hf
      · cases hf
    · exact absurd (hn2 _ hf) hno
  have tail : ∀ {w1 : W} {t : List Out}, Tail c w1 (Core.process c rx w).2 → (Core.process c rx w).2.out = w1.out ++ t → .tx f ok ∈ t →
      f.cls = 0 ∧ f.typ = 39 ∧ 0 < w1.v.ext.count.toNat := by
    intro w1 t ht he hm
    obtain ⟨t', h1, h2⟩ := ht.sends
    have : t = t' := List.append_cancel_left (he.symm.trans h1)
    subst this
    rcases h2 f (frame_mem hm) with h | h
    · exact absurd ⟨h.1, h.2.1⟩ hb
    · exact ⟨h.1, h.2.1, h.2.2.2⟩
  by_cases hex : ∃ m, m.cls = 0 ∧ Takes c rx w m
  · obtain ⟨m, hm, htk⟩ := hex
    obtain ⟨w1, t1, ht1, ho1, hs, htail⟩ := takes_cycle htk hm
    have hn1 : w1.v.nick = w.v.nick := hs .nick (by decide)
    have he1 : w1.v.ext = w.v.ext := by simpa only [Comp.same] using hs .ext (by decide)
    obtain ⟨t2, ht2, ho2⟩ := handler_frames (c := c) (m := m) w1
    obtain ⟨t3, ht3, -⟩ := htail.sends
    have ht : (Core.process c rx w).2.out = w.out ++ (t1 ++ t2 ++ t3) := by rw [ht3, ht2, ht1]; simp only [List.append_assoc]
    rw [made_of ht] at hf
    simp only [List.mem_append] at hf
    by_cases hh : Core.handleProtocolClassType c m w1 = ((), w1)
    · -- the handler does nothing
      rw [hh] at ht2 htail ht3
      have h2 : t2 = [] := by simpa using ht2
      subst h2
      rcases hf with (hf | hf) | hf
      · obtain ⟨b, hb⟩ := ho1 _ hf; cases hb
      · cases hf
      · obtain ⟨h1, h2, h3⟩ := tail htail ht3 hf
        exact .stream ha (by rw [← he1]; exact h3) h1 h2
    · have conc : ∀ {r : U8}, (m.typ, r) ∈ answers → concerns m w.v.nick := by
        intro r hr
        rcases answers_addressed hr with h2 | h2
        · by_cases hc : m.size = 1 ∧ w1.v.nick = m.data[0]
          · exact .inl (by rw [payload_get' (by rw [hc.1]; decide) (by decide), ← hc.2, hn1])
          · refine absurd ?_ hh
            rw [handler2 h2, Core.handleNewNodeOnline, bind_run, get_run, whenM_run, if_neg hc]
        · by_cases hc : concerns m w.v.nick
          · exact hc
          · exact absurd (States.C29_handler c m w1 h2 (by rw [hn1]; exact hc)) hh
      rcases hf with (hf | hf) | hf
      · obtain ⟨b, hb⟩ := ho1 _ hf; cases hb
      · obtain ⟨h1, h2⟩ := ho2 _ hf f ok rfl
        have hr := responses_answers _ _ h2
        exact .answer m htk hm (conc hr) h1 hr
      · obtain ⟨h1, h2, h3⟩ := tail htail ht3 hf
        by_cases h37 : m.typ = 37
        · have hr : (m.typ, (39 : U8)) ∈ answers := by rw [h37]; decide
          exact .answer m htk hm (conc hr) h1 (by rw [h2]; exact hr)
        · rcases handler_ext (c := c) h37 w1 with h | h
          · exact .stream ha (by rw [← he1, ← h]; exact h3) h1 h2
          · rw [h] at h3; exact absurd h3 (by decide)
  · obtain ⟨w1, t1, ht1, ho1, hs, htail⟩ := other_cycle (c := c) (rx := rx) ha (fun m hm h => hex ⟨m, hm, h⟩)
    have he1 : w1.v.ext = w.v.ext := by simpa only [Comp.same] using hs .ext (by decide)
    obtain ⟨t3, ht3, -⟩ := htail.sends
    have ht : (Core.process c rx w).2.out = w.out ++ (t1 ++ t3) := by rw [ht3, ht1, List.append_assoc]
    rw [made_of ht] at hf
    rcases List.mem_append.mp hf with hf | hf
    · rcases ho1 _ hf with ⟨m, b, h⟩ | ⟨m, h⟩ <;> cases h
    · obtain ⟨h1, h2, h3⟩ := tail htail ht3 hf
      exact .stream ha (by rw [← he1]; exact h3) h1 h2

/-- What a node sends which becomes active. -/
theorem announces (c : Ctx) (w : W) (h : w.v.st ≠ .active) : ∃ t, (Core.changeToStateActive c w).2.out = w.out ++ t ∧
    (Core.changeToStateActive c w).2.v.st = .active ∧ (Core.changeToStateActive c w).2.v.nick = w.v.nick ∧
    ∀ f ok, .tx f ok ∈ t → f = event c w.v.nick 0 2 [w.v.nick] := by
  unfold Core.changeToStateActive
  rw [bind_run, get_run]
  simp only [whenM_run, if_pos h, bind_run, emit_run, setV_run]
  rw [txVoid_run c 0 2 [w.v.nick] (by simp)]
  dsimp only
  have key : ∀ w2 : W, w2.out = w.out ++ [.lamp .on, .tx (event c w.v.nick 0 2 [w.v.nick]) (c.txOk (w.out ++ [Out.lamp .on]).length)] →
      w2.v.st = .active → w2.v.nick = w.v.nick → ∃ t, w2.out = w.out ++ t ∧ w2.v.st = .active ∧ w2.v.nick = w.v.nick ∧
        ∀ f ok, .tx f ok ∈ t → f = event c w.v.nick 0 2 [w.v.nick] := by
    intro w2 h1 h2 h3
    refine ⟨_, h1, h2, h3, fun f ok hm => ?_⟩
    simp only [List.mem_cons, List.not_mem_nil, or_false] at hm
    rcases hm with hm | hm
    · cases hm
    · cases hm; rfl
  split
  · rw [timerStart_run]
    refine key _ ?_ ?_ ?_ <;> (split <;> simp [sent_out, sent_v])
  · exact key _ (by simp [sent_out]) (by simp [sent_v]) (by simp [sent_v])

/-- What a node sends which gets a nickname. -/
theorem named (c : Ctx) (n : U8) (w : W) (h : w.v.st ≠ .active) : ∃ t, (Core.changeToStateActive c (Core.writeNicknameId c n w).2).2.out = w.out ++ t ∧
    (Core.changeToStateActive c (Core.writeNicknameId c n w).2).2.v.st = .active ∧
    (Core.changeToStateActive c (Core.writeNicknameId c n w).2).2.v.nick = n ∧
    ∀ f ok, .tx f ok ∈ t → f = event c n 0 2 [n] := by
  rw [writeNick_run]
  obtain ⟨t, h1, h2, h3, h4⟩ := announces c { w with v := { w.v with nick := n }, ps := fun x => if x = Ps.addrNickname c then n else w.ps x, out := w.out ++ [.psW (Ps.addrNickname c) n] } h
  refine ⟨.psW (Ps.addrNickname c) n :: t, by rw [h1]; simp, h2, h3, fun f ok hm => ?_⟩
  rcases List.mem_cons.mp hm with hm | hm
  · cases hm
  · exact h4 f ok hm

theorem timerStop_vars (t : Tmr) (w : W) : (timerStop t w).2.out = w.out ∧ (timerStop t w).2.v = w.v := by
  unfold timerStop
  dsimp only
  split <;> exact ⟨rfl, rfl⟩

theorem silent_emits {c : Ctx} {a : Act} {f : Msg} {ok : Bool} (hs : a.silent = true) (ho : a.emits c (.tx f ok)) : False := by
  cases a <;> simp only [Act.silent, Bool.false_eq_true] at hs <;> simp [Act.emits] at ho

/-- What a step sends. -/
theorem sends_of {c : Ctx} {α : Type} {P : Msg → Prop} {x : M α} {rx : Option Msg} {w w1 : W} {f : Msg} {ok : Bool} (ho : w1.out = w.out)
    (he : (Core.process c rx w).2 = (x w1).2) (hx : Calls (Only P) x) (hf : .tx f ok ∈ madeBy c rx w) : P f := by
  obtain ⟨t, h1, h2⟩ := hx w1
  rw [made_of (by rw [he, h1, ho])] at hf
  exact h2 _ hf f ok rfl

theorem probes {c : Ctx} {β : Type} {l : List U8} {rest : Bool → M β} {rx : Option Msg} {w w1 : W} {f : Msg} {ok : Bool} (ho : w1.out = w.out)
    (he : (Core.process c rx w).2 = ((Core.tx c 7 2 l >>= rest) w1).2) (hl : l.length ≤ 8) (hx : ∀ b, Calls (Only fun _ => False) (rest b))
    (hf : .tx f ok ∈ madeBy c rx w) : f = event c w1.v.nick 7 2 l := by
  rw [bind_run, tx_run c 7 2 l hl] at he
  obtain ⟨t, h1, h2⟩ := hx (c.txOk w1.out.length) (sent c (event c w1.v.nick 7 2 l) w1)
  have e : (Core.process c rx w).2.out = w.out ++ (.tx (event c w1.v.nick 7 2 l) (c.txOk w1.out.length) :: t) := by
    rw [he]
    refine h1.trans ?_
    rw [sent_out, ho]; simp
  rw [made_of e] at hf
  rcases List.mem_cons.mp hf with hf | hf
  · cases hf; rfl
  · exact (h2 _ hf f ok rfl).elim

/-- A cycle of a node which is not active. -/
theorem inactive_reason {c : Ctx} {rx : Option Msg} {w : W} {f : Msg} {ok : Bool} (ha : w.v.st ≠ .active) (hf : .tx f ok ∈ madeBy c rx w) :
    Reason c rx w f := by
  have hpo : (preProcess c rx w).2.out = w.out := pre_out c rx w
  have hpn : (preProcess c rx w).2.v.nick = w.v.nick := pre_same c rx w .nick (by decide)
  have hps : (preProcess c rx w).2.v.st = w.v.st := pre_same c rx w .st (by decide)
  have silent : (stateActs w.v.st).all Act.silent = true → False := by
    intro h
    obtain ⟨t, h1, h2⟩ := (process_state c rx w).outs
    rw [made_of (h1.trans (by rw [hpo]))] at hf
    obtain ⟨a, h3, h4⟩ := h2 _ hf
    exact silent_emits (List.all_eq_true.mp h a h3) h4
  have none_of : ∀ {α : Type} {x : M α} {w1 : W}, w1.out = w.out → (Core.process c rx w).2 = (x w1).2 → Calls (Only fun _ => False) x → False :=
    fun h1 h2 h3 => sends_of (P := fun _ => False) h1 h2 h3 hf
  have online : ∀ {t : List Out} {n : U8}, (w.v.st = .startup ∨ w.v.st = .init ∨ w.v.st = .preActive) → (Core.process c rx w).2.out = w.out ++ t →
      (Core.process c rx w).2.v.st = .active → (Core.process c rx w).2.v.nick = n → (∀ f ok, .tx f ok ∈ t → f = event c n 0 2 [n]) →
      Reason c rx w f := by
    intro t n h0 h1 h2 h3 h4
    rw [made_of h1] at hf
    refine .online h0 h2 ?_
    have e : (stepOp c (.process rx) w).2.v.nick = n := h3
    rw [e]
    exact h4 f ok hf
  cases hst : w.v.st with
  | active => exact absurd hst ha
  | reset | idle | error => rw [hst] at silent; exact (silent (by decide)).elim
  | startup =>
    have hp := process_startup (c := c) (rx := rx) hst
    rw [hst] at hps
    generalize (preProcess c rx w).2 = w1 at *
    unfold Core.stateStartup at hp
    rw [bind_run, get_run] at hp
    dsimp only at hp
    by_cases hn : w1.v.nick = Core.NOT_INIT
    · rw [if_pos hn] at hp
      refine (none_of hpo hp ?_).elim
      refine .ite (fun _ => ?_) fun _ => ?_
      · cases (readMessage c rx w).1 with
        | none => exact .pure _
        | some m => exact .whenM fun _ => Only.of_silent .handleGuidDropNickname (by decide)
      · exact .bind (Only.of_silent (A := []) .getStartUpControl rfl) fun _ => .whenM fun _ =>
          Only.of_silent (A := [.st .init, .ist, .nick]) (.changeToStateInit (by decide)) rfl
    · rw [if_neg hn] at hp
      obtain ⟨t, h1, h2, h3, h4⟩ := announces c w1 (by rw [hps]; decide)
      rw [← hp] at h1 h2 h3
      exact online (.inl hst) (h1.trans (by rw [hpo])) h2 h3 h4
  | init =>
    have hp := process_init (c := c) (rx := rx) hst
    have hist : (preProcess c rx w).2.v.ist = w.v.ist := congrArg Disc.ist (disc_pre c rx w)
    have hprobe : (preProcess c rx w).2.v.probe = w.v.probe := congrArg Disc.probe (disc_pre c rx w)
    rw [hst] at hps
    generalize (preProcess c rx w).2 = w1 at *
    unfold Core.stateInit at hp
    rw [bind_run, get_run] at hp
    dsimp only at hp
    cases hi : w.v.ist with
    | probeMaster =>
      rw [hist, hi] at hp
      refine .probeMaster hst hi ?_
      rw [← hpn]
      exact probes hpo hp (by simp) (fun b => .whenM fun _ => .bind (.setV _) fun _ => Only.of_silent (c := c) (A := [.tm .main]) (.timerStart _ (by decide)) rfl) hf
    | probeMasterWait =>
      rw [hist, hi] at hp
      exact (none_of hpo hp (.bind (Only.of_silent (c := c) (A := []) (.timerRunning _) rfl) fun _ => .ite (fun _ => .setV _) fun _ => .whenM fun _ => .setV _)).elim
    | probe =>
      rw [hist, hi] at hp
      refine .probe hst hi ?_
      rw [← hpn, ← hprobe]
      refine probes hpo hp (by simp) (fun b => .whenM fun _ => .ite (fun _ => .bind (Only.of_silent (c := c) (A := [.tm .main]) (.timerStop (by decide)) rfl) fun _ =>
        Only.of_silent (A := [.st .idle, .idleEntered]) (.changeToStateIdle (by decide)) rfl) fun _ => .bind (.setV _) fun _ =>
        Only.of_silent (c := c) (A := [.tm .main]) (.timerStart _ (by decide)) rfl) hf
    | probeWait =>
      rw [hist, hi] at hp
      dsimp only at hp
      rw [bind_run, timerRunning_run] at hp
      dsimp only at hp
      split at hp
      · rw [bind_run] at hp
        obtain ⟨t, h1, h2, h3, h4⟩ := named c w1.v.probe w1 (by rw [hps]; decide)
        rw [← hp] at h1 h2 h3
        exact online (.inr (.inl hst)) (h1.trans (by rw [hpo])) h2 h3 h4
      · exact (none_of hpo hp (.whenM fun _ => .bind (Only.of_silent (c := c) (A := [.tm .main]) (.timerStop (by decide)) rfl) fun _ => .setV _)).elim
  | preActive =>
    have hp := process_preActive (c := c) (rx := rx) hst
    rw [hst] at hps
    generalize (preProcess c rx w).2 = w1 at *
    unfold Core.statePreActive at hp
    rw [bind_run, timerRunning_run] at hp
    dsimp only at hp
    split at hp
    · exact (none_of hpo hp (Only.of_silent (A := [.st .init, .ist, .nick]) (.changeToStateInit (by decide)) rfl)).elim
    · cases hr : (readMessage c rx w).1 with
      | none => rw [hr] at hp; exact (none_of hpo hp (.pure _)).elim
      | some m =>
        rw [hr] at hp
        dsimp only at hp
        by_cases hm : m.cls = Transport.CLASS_PROTOCOL ∧ m.typ = 6 ∧ m.oAddr = Core.MASTER ∧ m.data[0] = Core.NOT_INIT
        · rw [whenM_run, if_pos hm, bind_run, bind_run, bind_run, writeNick_run, txVoid_run c 7 7 [] (by simp)] at hp
          obtain ⟨e1, e2⟩ := timerStop_vars .main w1
          generalize (timerStop .main w1).2 = w2 at *
          obtain ⟨w3, hw3⟩ : ∃ w3 : W, w3 = { w2 with v := { w2.v with nick := m.data[1] }, ps := fun x => if x = Ps.addrNickname c then m.data[1] else w2.ps x, out := w2.out ++ [.psW (Ps.addrNickname c) m.data[1]] } := ⟨_, rfl⟩
          rw [← hw3] at hp
          have n3 : w3.v.nick = m.data[1] := by rw [hw3]
          have s3 : w3.v.st = .preActive := by rw [hw3]; show w2.v.st = _; rw [e2, hps]
          have o3 : w3.out = w.out ++ [.psW (Ps.addrNickname c) m.data[1]] := by rw [hw3, ← hpo, ← e1]
          obtain ⟨t, h1, h2, h3, h4⟩ := announces c (sent c (event c w3.v.nick 7 7 []) w3) (by rw [sent_v, s3]; decide)
          rw [sent_v, n3] at h3 h4
          rw [sent_out, o3, n3] at h1
          have hp' : (Core.process c rx w).2 = (Core.changeToStateActive c (sent c (event c w3.v.nick 7 7 []) w3)).2 := hp
          rw [n3] at hp' h2
          rw [← hp'] at h1 h2 h3
          rw [List.append_assoc, List.append_assoc] at h1
          rw [made_of h1] at hf
          simp only [List.cons_append, List.nil_append, List.mem_cons] at hf
          rcases hf with hf | hf | hf
          · cases hf
          · refine .accepted m hst hr ⟨hm.1, hm.2.1, hm.2.2.1⟩ hm.2.2.2 h3 ?_
            cases hf; rfl
          · refine .online (.inr (.inr hst)) h2 ?_
            have e : (stepOp c (.process rx) w).2.v.nick = m.data[1] := h3
            rw [e]
            exact h4 f ok hf
        · rw [whenM_run, if_neg hm] at hp
          exact (none_of (x := (pure () : M Unit)) hpo hp (.pure _)).elim

/-- C118: every event which a node hands over to its adapter in a cycle has a reason: it answers a request which the node receives in this
cycle and which is addressed to the node; it belongs to an extended page read which was requested before and is not yet complete; it is a due
heartbeat; or it belongs to the discovery of the nickname: a probe, the answer to the segment master, or the announcement of the new nickname. -/
theorem C118_cycle {c : Ctx} {rx : Option Msg} {w : W} {f : Msg} {ok : Bool} (hf : .tx f ok ∈ madeBy c rx w) : Reason c rx w f := by
  by_cases ha : w.v.st = .active
  · exact active_reason ha hf
  · exact inactive_reason ha hf

/-! ### Calls and histories -/

theorem logs_send {c : Ctx} {m : Msg} {P : Msg → Prop} (hm : ∀ s d, P { m with size := s, data := d }) (id level e : U8) (msg : List U8) :
    Calls (Only P) (Logger.sendLoop c m id level e msg) := by
  unfold Logger.sendLoop
  refine .bind (fun w => ?_) fun status => ?_
  · obtain ⟨tp, ub, t, ht, hc⟩ := writeMessage_frame c { m with size := 8, data := bytes8 ([id, level, e] ++ msg.take 5) } w
    unfold Core.sendEvent
    rw [ht]
    refine ⟨t, rfl, ?_⟩
    rcases hc with rfl | ⟨rfl, -⟩
    · simp only [List.mem_singleton, forall_eq]
      intro f ok h
      cases h; exact hm _ _
    · simp
  · split
    · exact logs_send hm id level (e + 1) (msg.drop 5)
    · exact .pure _
termination_by msg.length
decreasing_by
  simp only [List.length_drop] at *
  omega

theorem log_sends {c : Ctx} (id level : U8) (msg : List U8) : Calls (Only fun f => f.cls = 509 ∧ f.typ = 1) (Logger.log c id level msg) := by
  unfold Logger.log Logger.sendLogEvent
  refine .bind .get fun _ => .whenM fun _ => .whenM fun _ => .bind ?_ fun _ => .pure _
  intro w
  rw [bind_run]
  exact logs_send (P := fun f => f.cls = 509 ∧ f.typ = 1) (fun _ _ => ⟨rfl, rfl⟩) id level 0 msg w

/-- C118: outside of its cycles a node hands over to its adapter only the events the application sends, and its log events. -/
theorem C118_calls {c : Ctx} {op : Op} {w : W} {t : List Out} {f : Msg} {ok : Bool} (ht : (stepOp c op w).2.out = w.out ++ t)
    (hf : .tx f ok ∈ t) : Told c op w f := by
  have calls : ∀ {P : Msg → Prop}, Calls (Only P) (stepOp c op) → P f := by
    intro P h
    obtain ⟨t', h1, h2⟩ := h w
    have : t = t' := List.append_cancel_left (ht.symm.trans h1)
    subst this
    exact h2 _ hf f ok rfl
  have silent : (∀ rx, op ≠ .process rx) → (opActs op).all Act.silent = true → False := by
    intro hp h
    obtain ⟨t', h1, h2⟩ := (op_steps c op hp w).outs
    have : t = t' := List.append_cancel_left (ht.symm.trans h1)
    subst this
    obtain ⟨a, h3, h4⟩ := h2 _ hf
    exact silent_emits (List.all_eq_true.mp h a h3) h4
  cases op with
  | process rx =>
    refine C118_cycle (ok := ok) ?_
    unfold madeBy
    rw [ht, List.drop_left]
    exact hf
  | sendEvent m =>
    have e : (stepOp c (.sendEvent m) w).2 = (writeMessage c m w).2 := rfl
    obtain ⟨tp, ub, t', hw, hc⟩ := writeMessage_frame c m w
    rw [e, hw] at ht
    have : t' = t := List.append_cancel_left ht
    subst this
    rcases hc with rfl | ⟨rfl, -⟩
    · rw [List.mem_singleton] at hf; cases hf; rfl
    · cases hf
  | log id level msg => exact calls (log_sends id level msg)
  | logUInt32 id level x => exact calls (log_sends id level _)
  | _ => exact (silent (fun _ h => by cases h) rfl).elim

theorem op_grows (c : Ctx) (op : Op) (w : W) : ∃ t, (stepOp c op w).2.out = w.out ++ t := Wear.op_out c op w

theorem history {c : Ctx} {f : Msg} {ok : Bool} (ops : List Op) (w : W) (h : .tx f ok ∈ (runOps c ops w).out) :
    .tx f ok ∈ w.out ∨ ∃ ops1 op ops2, ops = ops1 ++ op :: ops2 ∧ Told c op (runOps c ops1 w) f := by
  induction ops generalizing w with
  | nil => exact .inl h
  | cons op ops ih =>
    rcases ih _ h with h1 | ⟨ops1, op', ops2, h1, h2⟩
    · obtain ⟨t, ht⟩ := op_grows c op w
      rw [ht] at h1
      rcases List.mem_append.mp h1 with h1 | h1
      · exact .inl h1
      · exact .inr ⟨[], op, ops, rfl, C118_calls ht h1⟩
    · exact .inr ⟨op :: ops1, op', ops2, by rw [h1]; rfl, h2⟩

/-- C118: every event which a node hands over to its adapter, in any history of calls behind power up, was asked for at that point of the
history: by the application, or in the cycle as in `C118_cycle`. -/
theorem C118_history {c : Ctx} {ps : Nat → U8} {ops : List Op} {f : Msg} {ok : Bool} (h : .tx f ok ∈ (runOps c ops (powerUp ps)).out) :
    ∃ ops1 op ops2, ops = ops1 ++ op :: ops2 ∧ Told c op (runOps c ops1 (powerUp ps)) f := by
  rcases history ops _ h with h | h
  · simp [powerUp] at h
  · exact h

/-- A cycle in which an active node is told nothing. -/
theorem unasked_cycle {c : Ctx} {rx : Option Msg} {w : W} (ha : w.v.st = .active) (hb : c.hbNode = false ∨ w.v.hbOn = false) (he : w.v.ext.count = 0)
    (h : ∀ m, Takes c rx w m → m.cls ≠ 0 ∨ (m.typ ∈ addressed ∧ ¬ concerns m w.v.nick)) :
    (∀ f ok, .tx f ok ∉ madeBy c rx w) ∧ (Core.process c rx w).2.v.st = .active ∧ (Core.process c rx w).2.v.hbOn = w.v.hbOn ∧
      (Core.process c rx w).2.v.ext.count = 0 := by
  refine ⟨fun f ok hf => ?_, ?_⟩
  · cases C118_cycle hf with
    | answer m h1 h2 h3 h4 h5 =>
      rcases h m h1 with h6 | ⟨h6, h7⟩
      · exact h6 h2
      · exact h7 h3
    | stream _ h1 => rw [he] at h1; exact absurd h1 (by decide)
    | heartbeat _ h1 h2 =>
      rcases hb with hb | hb
      · rw [hb] at h1; cases h1
      · rw [hb] at h2; cases h2
    | probeMaster h1 => rw [ha] at h1; cases h1
    | probe h1 => rw [ha] at h1; cases h1
    | online h1 => rw [ha] at h1; rcases h1 with h1 | h1 | h1 <;> cases h1
    | accepted m h1 => rw [ha] at h1; cases h1
  · have key : ∀ w1 : W, (∀ k : Comp, [Comp.epoch, .tm .epoch, .lb, .rx, .lg].contains k = false → k.same w w1) → Tail c w1 (Core.process c rx w).2 →
        (Core.process c rx w).2.v.st = .active ∧ (Core.process c rx w).2.v.hbOn = w.v.hbOn ∧ (Core.process c rx w).2.v.ext.count = 0 := by
      intro w1 hs ht
      have g1 := hs .st (by decide)
      have g2 := hs .hb (by decide)
      have g3 := hs .ext (by decide)
      simp only [Comp.same] at g1 g2 g3
      have hq := ht.quiet (by rw [g3, he]; rfl)
      have q1 := hq.same .st (by decide)
      have q2 := hq.same .hb (by decide)
      have q3 := hq.same .ext (by decide)
      simp only [Comp.same] at q1 q2 q3
      exact ⟨by rw [q1, g1, ha], by rw [q2, g2], by rw [q3, g3, he]⟩
    by_cases hex : ∃ m, m.cls = 0 ∧ Takes c rx w m
    · obtain ⟨m, hm, htk⟩ := hex
      obtain ⟨w1, t1, ht1, ho1, hs, htail⟩ := takes_cycle htk hm
      have hn1 : w1.v.nick = w.v.nick := hs .nick (by decide)
      rcases h m htk with h6 | ⟨h6, h7⟩
      · exact absurd hm h6
      · rw [States.C29_handler c m w1 h6 (by rw [hn1]; exact h7)] at htail
        exact key w1 hs htail
    · obtain ⟨w1, t1, ht1, ho1, hs, htail⟩ := other_cycle (c := c) (rx := rx) ha (fun m hm h => hex ⟨m, hm, h⟩)
      exact key w1 hs htail

/-- C118: an active node without heartbeat, to which nobody speaks, is silent for ever: whatever time passes, whatever events of other classes and for
other nodes it receives. -/
theorem C118_silent {c : Ctx} (ops : List Op) (w : W) (ha : w.v.st = .active) (hb : c.hbNode = false ∨ w.v.hbOn = false) (he : w.v.ext.count = 0)
    (h : Unasked c ops w) : frames (runOps c ops w).out = frames w.out ∧ (runOps c ops w).v.st = .active := by
  induction ops generalizing w with
  | nil => exact ⟨rfl, ha⟩
  | cons op ops ih =>
    obtain ⟨h1, h2⟩ := h
    rcases h1 with ⟨ms, rfl⟩ | ⟨rx, rfl, h1⟩
    · have e : (stepOp c (.tick ms) w).2.v = w.v ∧ (stepOp c (.tick ms) w).2.out = w.out := ⟨rfl, rfl⟩
      have := ih (stepOp c (.tick ms) w).2 ha hb he h2
      exact this
    · obtain ⟨g1, g2, g3, g4⟩ := unasked_cycle ha hb he h1
      have := ih (stepOp c (.process rx) w).2 g2 (hb.imp id fun hb => g3.trans hb) g4 h2
      refine ⟨this.1.trans ?_, this.2⟩
      obtain ⟨t, ht⟩ := op_grows c (.process rx) w
      have hm : madeBy c rx w = t := made_of ht
      rw [ht, frames_append]
      have : frames t = [] := by
        unfold frames
        rw [List.filterMap_eq_nil_iff]
        intro o ho
        cases o with
        | tx f ok => rw [hm] at g1; exact absurd ho (g1 f ok)
        | _ => rfl
      rw [this, List.append_nil]

/-- The example node answers the read of a register, and this is the reason it has. -/
example : (frames (madeBy Ex.ctx (some (Ex.msg 0 9 9 [5, 0x80])) (node Ex.ctx allOk (mem 0x60) [.process none]))).map
      (fun f => (f.cls, f.typ, f.oAddr, payload f)) = [(0, 10, 5, [0x80, 0])] ∧
    (node Ex.ctx allOk (mem 0x60) [.process none]).v.st = .active := by
  unfold madeBy frames payload
  decide +kernel

/-- The example node hears a request for another node and an event of another class while its heartbeat is off, and says nothing. -/
example : (node Ex.ctx allOk (mem 0x60) [.process none, .enableHeartbeat false]).v.st = .active ∧
    (node Ex.ctx allOk (mem 0x60) [.process none, .enableHeartbeat false]).v.hbOn = false ∧
    (node Ex.ctx allOk (mem 0x60) [.process none, .enableHeartbeat false]).v.ext.count = 0 ∧
    Unasked Ex.ctx [.tick 60000, .process (some (Ex.msg 0 9 9 [6, 0x80])), .process (some (Ex.msg 20 3 5 [1, 2, 3]))]
      (node Ex.ctx allOk (mem 0x60) [.process none, .enableHeartbeat false]) := by
  refine ⟨by decide +kernel, by decide +kernel, by decide +kernel, .inl ⟨_, rfl⟩, .inr ⟨_, rfl, fun m h => ?_⟩, .inr ⟨_, rfl, fun m h => ?_⟩, trivial⟩
  · have e : (readMessage Ex.ctx (some (Ex.msg 0 9 9 [6, 0x80])) (stepOp Ex.ctx (.tick 60000) (node Ex.ctx allOk (mem 0x60) [.process none, .enableHeartbeat false])).2).1 =
        some (Ex.msg 0 9 9 [6, 0x80]) := by decide +kernel
    have hm := h.2.1
    rw [e] at hm
    cases hm
    refine .inr ⟨by decide +kernel, ?_⟩
    unfold concerns
    decide +kernel
  · have e : (readMessage Ex.ctx (some (Ex.msg 20 3 5 [1, 2, 3])) (stepOp Ex.ctx (.process (some (Ex.msg 0 9 9 [6, 0x80]))) (stepOp Ex.ctx (.tick 60000) (node Ex.ctx allOk (mem 0x60) [.process none, .enableHeartbeat false])).2).2).1 =
        some (Ex.msg 20 3 5 [1, 2, 3]) := by decide +kernel
    have hm := h.2.1
    rw [e] at hm
    cases hm
    exact .inl (by decide +kernel)

end Vscp.Speech
