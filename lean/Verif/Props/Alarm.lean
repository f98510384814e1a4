/-
Property theorems: the alarm status (C41).
-/
import Verif.Props.Pages
import Verif.Props.Safety
import Verif.Lemmas.Types
import Verif.Spec.Alarm

namespace Vscp.Alarm
open M Spec Transport Safety

/-- Bit `i` of the alarm status is not lost: it is still set, or factory settings were restored, or it was reported. -/
def Kept (i : Nat) (w w' : W) : Prop := ∃ t, w'.out = w.out ++ t ∧
  (w.v.alarm.getLsbD i = true → w'.v.alarm.getLsbD i = true ∨ restored t ∨ reported t i)

def KeptM {α : Type} (i : Nat) (m : M α) : Prop := ∀ w, Kept i w (m w).2

section
variable {α β : Type} {c : Ctx} {i : Nat}

theorem Kept.refl (w : W) : Kept i w w := ⟨[], by simp, fun h => .inl h⟩

theorem Kept.trans {w w' w'' : W} (h : Kept i w w') (h' : Kept i w' w'') : Kept i w w'' := by
  obtain ⟨t, h1, h2⟩ := h
  obtain ⟨t', h1', h2'⟩ := h'
  refine ⟨t ++ t', by rw [h1', h1, List.append_assoc], fun hb => ?_⟩
  rcases h2 hb with h | h | ⟨m, ok, a, h, hr⟩
  · rcases h2' h with h | h | ⟨m, ok, a, h, hr⟩
    · exact .inl h
    · exact .inr (.inl (List.mem_append_right _ h))
    · exact .inr (.inr ⟨m, ok, a, List.mem_append_right _ h, hr⟩)
  · exact .inr (.inl (List.mem_append_left _ h))
  · exact .inr (.inr ⟨m, ok, a, List.mem_append_left _ h, hr⟩)

theorem Kept.same {w w' : W} {t : List Out} (ho : w'.out = w.out ++ t) (ha : w'.v.alarm = w.v.alarm) : Kept i w w' :=
  ⟨t, ho, fun h => .inl (by rw [ha]; exact h)⟩

theorem Kept.step {a : Act} {w w' : W} (ha : a ≠ .alarm) (h : Step c True a w w') : Kept i w w' := by
  obtain ⟨t, ho, -⟩ := h.outs
  by_cases hr : a = .restore
  · subst hr
    simp only [Step] at h
    rw [restore_run] at h
    subst h
    exact ⟨_, rfl, fun _ => .inr (.inl (by simp [restored]))⟩
  · by_cases hor : a = .alarmOr
    · subst hor
      obtain ⟨x, rfl⟩ := h
      exact ⟨[], by simp, fun h => .inl (by simp [h])⟩
    · refine .same ho ?_
      have hs : Steps c True [a] w w' := .one (List.mem_singleton.mpr rfl) h
      refine hs.same .alarm ?_
      cases a <;> first | rfl | contradiction

theorem Kept.steps {A : List Act} {w w' : W} (hA : Act.alarm ∉ A) (h : Steps c True A w w') : Kept i w w' :=
  h.rel (R := Kept i) .refl (fun _ _ _ => .trans) fun _ ha _ _ hs => .step (fun e => hA (e ▸ ha)) hs

theorem KeptM.pure (a : α) : KeptM i (pure a : M α) := fun w => .refl w
theorem KeptM.get : KeptM i M.get := fun w => .refl w
theorem KeptM.bind {m : M α} {f : α → M β} (h : KeptM i m) (h' : ∀ a, KeptM i (f a)) : KeptM i (m >>= f) := by
  intro w; rw [bind_run]; exact (h w).trans (h' _ _)
theorem KeptM.whenM {p : Prop} [Decidable p] {m : M Unit} (h : p → KeptM i m) : KeptM i (whenM p m) := by
  intro w; rw [whenM_run]; split
  · exact h ‹_› w
  · exact .refl w
theorem KeptM.ite {p : Prop} [Decidable p] {a b : M α} (h : p → KeptM i a) (h' : ¬p → KeptM i b) : KeptM i (if p then a else b) := by
  split
  · exact h ‹_›
  · exact h' ‹_›
theorem KeptM.foot {A : List Act} {m : M α} (hf : Foot c True A m) (hA : Act.alarm ∉ A) : KeptM i m := fun w => .steps hA (hf w)

/-- A read of another register leaves the alarm status alone. -/
theorem KeptM.read {page : U16} {addr : U8} (h : ¬(page = 0 ∧ addr = 0x80)) : KeptM i (Core.readRegister c page addr) := by
  intro w
  obtain ⟨t, hr, -, -⟩ := readRegister_effect c page addr w
  rw [hr, if_neg h]
  exact .same rfl rfl

theorem KeptM.write {page : U16} {addr v : U8} : KeptM i (Core.writeRegister c page addr v) :=
  .foot (c := c) (.writeRegister (A := writeActs) (by simp)) (by decide)

theorem KeptM.txFrom {nick prio typ : U8} {l : List U8} : KeptM i (Core.txFrom c nick prio typ l) := by
  intro w
  have h : Steps c True [.userTx ⟨prio, 0, typ, nick, c.hardCoded, BitVec.ofNat 8 l.length, bytes8 l⟩] w (Core.txFrom c nick prio typ l w).2 :=
    .one (List.mem_singleton.mpr rfl) rfl
  exact .steps (by simp) h

theorem KeptM.pageWriteLoop {m : Msg} {addr : U8} (n index : Nat) (acc : List U8) : KeptM i (Core.pageWriteLoop c m addr n index acc) := by
  induction n generalizing index acc with
  | zero => exact .pure _
  | succ n ih =>
    unfold Core.pageWriteLoop
    exact .bind .get fun _ => .bind (.foot (c := c) (.dataAt (A := [.ub]) (by decide) fun _ => trivial) (by decide)) fun _ =>
      .bind .write fun _ => ih _ _

theorem KeptM.extWriteLoop {m : Msg} {page : U16} {addr : U8} (n index : Nat) (acc : List U8) :
    KeptM i (Core.extWriteLoop c m page addr n index acc) := by
  induction n generalizing index acc with
  | zero => exact .pure _
  | succ n ih =>
    unfold Core.extWriteLoop
    exact .bind (.foot (c := c) (.dataAt (A := [.ub]) (by decide) fun _ => trivial) (by decide)) fun _ =>
      .bind .write fun _ => ih _ _

theorem alarm_value (c : Ctx) (w : W) : (Core.readRegister c 0 0x80 w).1 = w.v.alarm := by
  rfl

theorem payload_event (c : Ctx) (nick prio typ : U8) (l : List U8) (hl : l.length ≤ 8) : payload (event c nick prio typ l) = l := by
  have := payload_frame c { powerUp (fun _ => 0) with v := { (powerUp fun _ => 0).v with nick := nick } } prio typ l hl
  exact this

/-- The position of the alarm status in a list of consecutive registers. -/
theorem alarm_at {c : Ctx} {w : W} {a : U8} {n : Nat} {vs : List U8} {rs : List (U16 × U8 × U8)} (hv : Values c 0 w (addresses a n) vs rs)
    (hm : (0x80 : U8) ∈ addresses a n) : ∃ k, k < n ∧ a + BitVec.ofNat 8 k = 0x80 ∧ vs[k]? = some w.v.alarm := by
  simp only [addresses, List.mem_map, List.mem_range] at hm
  obtain ⟨k, hk, he⟩ := hm
  have hl : (addresses a n).length = n := by simp [addresses]
  have hvl : vs.length = n := hv.length.trans hl
  refine ⟨k, hk, he, ?_⟩
  have hz : ((addresses a n).zip vs)[k]? = some (0x80, vs[k]) := by
    rw [List.getElem?_zip_eq_some]
    refine ⟨?_, List.getElem?_eq_getElem _⟩
    simp [addresses, hk, he]
  have := hv.kept (0x80, vs[k]) (List.mem_of_getElem? hz) (by simp [appServed])
  rw [List.getElem?_eq_getElem (by omega)]
  exact congrArg some this

theorem KeptM.extRead : KeptM i (Core.extendedPageReadRegister c) := by
  intro w
  by_cases hc : 0 < w.v.ext.count.toNat
  · obtain ⟨t, vs, txe, hr, hf, hlen, hv⟩ := extRead_run c w hc
    rw [hr]
    refine ⟨t ++ [.tx (extFrame c w.v.nick w.v.ext vs) (c.txOk (w.out ++ t).length)], by simp, fun hb => ?_⟩
    dsimp only
    split
    · rename_i h
      right; right
      rw [h.1] at hv
      obtain ⟨k, hk, he, hvk⟩ := alarm_at hv h.2
      have hk4 := chunk_le w.v.ext
      have hp : payload (extFrame c w.v.nick w.v.ext vs) = [w.v.ext.seq, wordMsb w.v.ext.page, wordLsb w.v.ext.page, w.v.ext.addr] ++ vs :=
        payload_event _ _ _ _ _ (by simp; omega)
      refine ⟨_, _, w.v.alarm, List.mem_append_right _ (List.mem_singleton.mpr rfl), ⟨rfl, .inr (.inr ⟨rfl, ?_⟩)⟩, hb⟩
      rw [hp, h.1]
      refine ⟨rfl, rfl, w.v.ext.addr, k, rfl, ?_, ?_⟩
      · have hch : w.v.ext.addr.toNat + k < 256 := by
          have : chunk 4 w.v.ext.addr w.v.ext.count ≤ 256 - w.v.ext.addr.toNat := by unfold chunk; omega
          omega
        have := congrArg BitVec.toNat he
        rw [add_ofNat_toNat (by omega)] at this
        exact this
      · rw [List.getElem?_append_right (by simp)]
        simpa using hvk
    · exact .inl hb
  · have : Core.extendedPageReadRegister c w = ((), w) := by
      unfold Core.extendedPageReadRegister
      rw [bind_run, get_run]
      simp only [whenM_run, if_neg hc]
    rw [this]
    exact .refl w

theorem KeptM.readEvent {m : Msg} : KeptM i (Core.handleReadRegister c m) := by
  intro w
  unfold Core.handleReadRegister
  rw [bind_run, get_run]
  simp only [whenM_run]
  split
  case isFalse => exact .refl w
  by_cases h : m.data[1] = 0x80
  · rw [h, bind_run]
    unfold Core.sendRegisterReadWriteRsp
    rw [txVoid_run _ _ _ _ (by simp)]
    obtain ⟨w1, hw1⟩ : ∃ w1 : W, w1 = (Core.readRegister c 0 0x80 w).2 := ⟨_, rfl⟩
    rw [← hw1, alarm_value]
    refine ⟨[.tx (event c w.v.nick 3 10 [0x80, w.v.alarm]) (c.txOk w.out.length)], by rw [hw1, sent, countErr_eq]; rfl, fun hb =>
      .inr (.inr ⟨event c w.v.nick 3 10 [0x80, w.v.alarm], _, w.v.alarm, List.mem_singleton.mpr rfl, ⟨rfl, .inl ⟨rfl, ?_⟩⟩, hb⟩)⟩
    exact payload_event _ _ _ _ _ (by simp)
  · exact KeptM.bind (.read (c := c) fun e => h e.2) (fun _ => .foot (c := c) (.sendRegisterReadWriteRsp (A := [.tx]) (by decide)) (by decide)) w

theorem KeptM.pageRead {m : Msg} (ht : m.typ = 24) (hm : m.cls = 0) : KeptM i (Core.handlePageRead c m) := by
  intro w
  by_cases h : m.size = 3 ∧ w.v.nick = m.data[0]
  · have hq : Request m 24 [w.v.nick, m.data[1], m.data[2]] := by
      refine ⟨hm, ht, h.1, ?_⟩
      rw [vec8_list m.data, h.2]
      rfl
    obtain ⟨t, vs, e, h1, h2, h3⟩ := Pages.page_read c w m m.data[1] m.data[2] hq
    rw [Pages.handle, handler24 ht] at h1
    rw [h1]
    refine ⟨t, rfl, fun hb => ?_⟩
    dsimp only
    split
    case isFalse => exact .inl hb
    rename_i hr
    right; right
    rw [hr.1] at h3
    generalize hn : min m.data[2].toNat (255 - m.data[1].toNat) = n at *
    obtain ⟨k, hk, he, hvk⟩ := alarm_at h3 hr.2
    have hmem : event c w.v.nick 3 26 (numbered vs (k / 7)) ∈ frames t := by
      rw [h2]
      exact List.mem_map.mpr ⟨k / 7, List.mem_range.mpr (by omega), rfl⟩
    obtain ⟨o, ho, hof⟩ := List.mem_filterMap.mp hmem
    obtain ⟨ok, rfl⟩ : ∃ ok, o = .tx (event c w.v.nick 3 26 (numbered vs (k / 7))) ok := by
      cases o <;> simp_all
    refine ⟨_, ok, w.v.alarm, ho, ⟨rfl, .inr (.inl ⟨rfl, ?_⟩)⟩, hb⟩
    rw [payload_event _ _ _ _ _ (by simp [numbered]; omega)]
    simp only [numbered, List.drop_succ_cons, List.drop_zero]
    apply List.mem_of_getElem? (i := k % 7)
    rw [List.getElem?_take_of_lt (Nat.mod_lt _ (by decide)), List.getElem?_drop, Nat.div_add_mod]
    exact hvk
  · unfold Core.handlePageRead
    rw [bind_run, get_run]
    simp only [whenM_run, if_neg h]
    exact .refl w

theorem stepsAlarm_iff {m : Msg} {nick : U8} (hm : m.cls = 0) (ht : m.typ = 29 ∨ m.typ = 30) (h : m.size = 2 ∧ nick = m.data[0]) (hd : m.data[1] = 0x80) :
    stepsAlarm m nick := ⟨hm, ht, by rw [payload_eq2 h.1, h.2, hd]⟩

theorem handler_kept {m : Msg} {w : W} (hm : m.cls = 0) (h : ¬ stepsAlarm m w.v.nick) : Kept i w (Core.handleProtocolClassType c m w).2 := by
  by_cases ht : Act.alarm ∈ typeActs m.typ.toNat
  case neg => exact .steps ht (Foot.handlerType w)
  have htt : m.typ.toNat ∈ [9, 24, 25, 29, 30, 37, 38] := by
    unfold typeActs at ht
    split at ht <;> simp_all [writeActs]
  simp only [List.mem_cons, List.not_mem_nil, or_false] at htt
  rcases htt with ht | ht | ht | ht | ht | ht | ht
  · rw [handler9 (ofToNat ht rfl)]; exact KeptM.readEvent w
  · rw [handler24 (ofToNat ht rfl)]; exact KeptM.pageRead (ofToNat ht rfl) hm w
  · rw [handler25 (ofToNat ht rfl)]
    unfold Core.handlePageWrite
    exact KeptM.bind .get (fun _ => .whenM fun _ => .bind (.pageWriteLoop (c := c) _ _ _) fun _ => .txFrom (c := c)) w
  · rw [handler29 (ofToNat ht rfl)]
    unfold Core.handleIncrementRegister
    rw [bind_run, get_run]
    simp only [whenM_run]
    split
    · rename_i hp
      exact KeptM.bind (.read (c := c) fun e => h (stepsAlarm_iff hm (.inl (ofToNat ht rfl)) hp e.2)) (fun _ => .bind (.write (c := c)) fun _ =>
        .whenM fun _ => .foot (c := c) (.sendRegisterReadWriteRsp (A := [.tx]) (by decide)) (by decide)) w
    · exact .refl w
  · rw [handler30 (ofToNat ht rfl)]
    unfold Core.handleDecrementRegister
    rw [bind_run, get_run]
    simp only [whenM_run]
    split
    · rename_i hp
      exact KeptM.bind (.read (c := c) fun e => h (stepsAlarm_iff hm (.inr (ofToNat ht rfl)) hp e.2)) (fun _ => .bind (.write (c := c)) fun _ =>
        .whenM fun _ => .foot (c := c) (.sendRegisterReadWriteRsp (A := [.tx]) (by decide)) (by decide)) w
    · exact .refl w
  · rw [handler37 (ofToNat ht rfl)]
    unfold Core.handleExtendedPageReadRegister
    exact KeptM.bind .get (fun _ => .whenM fun _ => .bind (.foot (c := c) (.one (a := .ext) (A := [.ext]) (by decide) fun w => ⟨_, rfl⟩)
      (by decide)) fun _ => .extRead (c := c)) w
  · rw [handler38 (ofToNat ht rfl)]
    unfold Core.handleExtendedPageWriteRegister
    exact KeptM.bind .get (fun _ => .whenM fun _ => .bind (.extWriteLoop (c := c) _ _ _) fun _ => .txFrom (c := c)) w

theorem KeptM.hbExt : KeptM i (Core.activeHeartbeat c) ∧ KeptM i (Core.activeExtRead c) := by
  refine ⟨.foot (c := c) .activeHeartbeat (by decide), ?_⟩
  unfold Core.activeExtRead
  refine .bind .get fun _ => ?_
  split
  · exact .extRead
  · exact .pure _

theorem pre_kept (rx : Option Msg) (w : W) : Kept i w (preProcess c rx w).2 :=
  .same (t := []) (by rw [pre_out]; simp) (pre_same c rx w .alarm (by decide))

theorem process_kept {rx : Option Msg} {w : W} (hx : ∀ m, Takes c rx w m → ¬ stepsAlarm m w.v.nick) :
    Kept i w (Core.process c rx w).2 := by
  by_cases ha : w.v.st = .active
  · obtain ⟨w2, hh, htl⟩ := active_parts_cycle (c := c) (rx := rx) ha
    have h1 : Kept i w w2 := by
      cases hh with
      | handler m hr hm hn h =>
        subst h
        obtain ⟨t1, ht1, -⟩ := notified_out c m (preProcess c rx w).2
        have hnick : (notified c m (preProcess c rx w).2).v.nick = w.v.nick :=
          (notified_same c m _ .nick).trans (pre_same c rx w .nick (by decide))
        refine .trans (pre_kept (c := c) rx w) (.trans (.same ht1 (notified_same c m _ .alarm)) ?_)
        refine handler_kept hm ?_
        rw [hnick]
        exact hx m ⟨ha, hr, hn⟩
      | other _ hs => exact .trans (pre_kept (c := c) rx w) (.steps (by decide) hs)
    refine h1.trans ?_
    rcases htl with ⟨-, e⟩ | ⟨m, -, -, e⟩
    · rw [e]
      exact .trans (KeptM.hbExt.1 _) (KeptM.hbExt.2 _)
    · rw [e]
      unfold Vscp.afterEvent
      exact KeptM.bind (.whenM fun h => .foot (c := c) (.dmExecuteActions (fun _ => trivial)) (by decide)) (fun _ =>
        .bind (.whenM fun h => .foot (c := c) (.ngExecuteActions (fun _ => trivial) (fun _ => trivial)) (by decide)) fun _ =>
        .bind KeptM.hbExt.1 fun _ => .bind KeptM.hbExt.2 fun _ => .pure _) w2
  · exact .trans (pre_kept (c := c) rx w) (.steps (by decide) (inactive_cycle ha))

end

/-- A call loses no bit of the alarm status. -/
theorem op_kept {c : Ctx} {i : Nat} (op : Op) (w : W) (hx : ∀ rx m, op = .process rx → Takes c rx w m → ¬ stepsAlarm m w.v.nick) :
    Kept i w (stepOp c op w).2 := by
  by_cases hp : ∃ rx, op = .process rx
  · obtain ⟨rx, rfl⟩ := hp
    exact process_kept fun m => hx rx m rfl
  · refine .steps ?_ (op_steps c op (fun rx e => hp ⟨rx, e⟩) w)
    cases op <;> simp [opActs]

/-! ### C41 -/

/-- C41: the application raises alarm bits; bits already raised stay. -/
theorem C41_set (c : Ctx) (v : U8) (w : W) (i : Nat) :
    (stepOp c (.setAlarm v) w).2.v.alarm.getLsbD i = (w.v.alarm.getLsbD i || v.getLsbD i) := by
  show (w.v.alarm ||| v).getLsbD i = _
  simp

/-- C41, partial: during any history of calls, from any state of the node, a raised alarm bit stays raised, or factory settings are restored,
or an alarm status with this bit set is put into a response to a read of the register.  Missing: increment and decrement
events for the register (see `C41_violated`) are excluded, and the response can get lost in the transport layer. -/
theorem C41_sticky_partial (c : Ctx) (ops : List Op) (w : W) (i : Nat)
    (hx : ∀ pre rx post m, ops = pre ++ .process rx :: post → Takes c rx (runOps c pre w) m → ¬ stepsAlarm m (runOps c pre w).v.nick)
    (hi : w.v.alarm.getLsbD i = true) :
    ∃ t, (runOps c ops w).out = w.out ++ t ∧ ((runOps c ops w).v.alarm.getLsbD i = true ∨ restored t ∨ reported t i) := by
  suffices h : Kept i w (runOps c ops w) by
    obtain ⟨t, h1, h2⟩ := h
    exact ⟨t, h1, h2 hi⟩
  clear hi
  induction ops generalizing w with
  | nil => exact .refl w
  | cons op ops ih =>
    refine .trans (op_kept (c := c) op w fun rx m e => ?_) (ih _ fun pre rx post m e => ?_)
    · subst e
      exact hx [] rx ops m rfl
    · exact hx (op :: pre) rx post m (by rw [e]; rfl)

/-- C41: reading the alarm status reports it and clears it. -/
theorem C41_read (c : Ctx) (w : W) (m : Msg) (hm : Request m 9 [w.v.nick, 0x80]) :
    (Core.handleProtocolClassType c m w).2.v.alarm = 0 ∧
    (Core.handleProtocolClassType c m w).2.out =
      w.out ++ [.tx (event c w.v.nick 3 10 [0x80, w.v.alarm]) (c.txOk w.out.length)] := by
  have h0 : m.data[0] = w.v.nick := hm.at 0 (by simp) (by simp)
  have h1 : m.data[1] = 0x80 := hm.at 1 (by simp) (by simp)
  have hs : m.size = 2 := hm.size
  rw [handler9 hm.typ]
  unfold Core.handleReadRegister
  rw [bind_run, get_run]
  simp only [whenM_run, hs, h0, h1]
  rw [if_pos ⟨trivial, trivial⟩, bind_run]
  unfold Core.sendRegisterReadWriteRsp
  rw [txVoid_run _ _ _ _ (by simp)]
  refine ⟨?_, ?_⟩ <;> rw [sent, countErr_eq] <;> rfl

/-- C41 is violated: an increment event for the alarm status clears it without reporting it; the frames which are sent contain
no data. -/
theorem C41_violated :
    let w := node Ex.ctx allOk (mem 0x60) [.process none, .setAlarm 5]
    let w' := (stepOp Ex.ctx (.process (some (Ex.msg 0 29 0 [w.v.nick, 0x80]))) w).2
    w.v.alarm = 5 ∧ w'.v.alarm = 0 ∧ (frames (w'.out.drop w.out.length)).map (fun m => (m.typ, payload m)) = [] ∧ Out.appRestore ∉ w'.out := by
  decide +kernel

/-- The same with a read whose response cannot be sent: the alarm status is cleared, and the response is not sent again. -/
theorem C41_lost :
    let c : Ctx := { Ex.ctx with txOk := fun _ => false }
    let w := node c allOk (mem 0x60) [.process none, .setAlarm 5]
    let w' := runOps c [.process (some (Ex.msg 0 9 0 [w.v.nick, 0x80])), .process none] w
    w.v.st = .active ∧ w.v.alarm = 5 ∧ w'.v.alarm = 0 ∧
    frames (w'.out.drop w.out.length) = [event c w.v.nick 3 10 [0x80, 5]] ∧ ∀ m, Out.tx m true ∉ w'.out.drop w.out.length := by
  intro c w w'
  refine ⟨by decide +kernel, by decide +kernel, by decide +kernel, by decide +kernel, fun m hm => ?_⟩
  have h : (w'.out.drop w.out.length).all (fun o => match o with | .tx _ ok => !ok | _ => true) = true := by decide +kernel
  exact absurd (List.all_eq_true.mp h _ hm) (by simp)

-- A history as in `C41_sticky_partial`: other registers are read and written, then the alarm status is read.
example : let w := node Ex.ctx allOk (mem 0x60) [.process none, .setAlarm 5]
    let ops : List Op := [.process (some (Ex.msg 0 9 0 [w.v.nick, 0x81])), .tick 500, .process (some (Ex.msg 0 29 0 [w.v.nick, 0x84])), .setAlarm 2,
      .process (some (Ex.msg 0 37 0 [w.v.nick, 0, 0, 0x7E, 2]))]
    (runOps Ex.ctx ops w).v.alarm = 7 ∧
    (runOps Ex.ctx (ops ++ [.process (some (Ex.msg 0 37 0 [w.v.nick, 0, 0, 0x7E, 3]))]) w).v.alarm = 0 ∧
    Request (Ex.msg 0 9 0 [w.v.nick, 0x80]) 9 [w.v.nick, 0x80] := by
  refine ⟨by decide +kernel, by decide +kernel, rfl, rfl, rfl, rfl⟩

end Vscp.Alarm
