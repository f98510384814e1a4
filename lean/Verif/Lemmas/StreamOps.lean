/-
Extended page reads in histories.
-/
import Verif.Lemmas.Stream
import Verif.Lemmas.Trace

namespace Vscp
open M Spec Transport

/-- The loopback queue is in order and holds only events which satisfy `P`. -/
def LbAll (c : Ctx) (P : Msg → Prop) (w : W) : Prop :=
  c.loopback = true → ∃ q, LbHolds c w q ∧ ∀ m ∈ q, P m

theorem LbAll.congr {c : Ctx} {P : Msg → Prop} {w w' : W} (h : LbAll c P w) (he : w'.tp.lb = w.tp.lb) : LbAll c P w' :=
  fun hl => by
    obtain ⟨q, hq, hs⟩ := h hl
    exact ⟨q, LbHolds_congr hq he, hs⟩

theorem LbAll.write {c : Ctx} {P : Msg → Prop} {w : W} (h : LbAll c P w) (m : Msg)
    (hm : m.size.toNat ≤ 8 → m.cls ≠ 0 → P m) : LbAll c P (writeMessage c m w).2 := by
  intro hl
  obtain ⟨q, hq, hs⟩ := h hl
  obtain ⟨h1, h2⟩ := writeMessage_queue hl hq m
  refine ⟨_, h1, ?_⟩
  intro x hx
  split at hx
  · rename_i hc
    rcases List.mem_append.mp hx with hx | hx
    · exact hs x hx
    · simp at hx; subst hx; exact hm hc.1.1 hc.1.2.1
  · exact hs x hx

theorem LbAll.read {c : Ctx} {P : Msg → Prop} {w : W} (h : LbAll c P w) (rx : Option Msg) (hrx : ∀ m, rx = some m → P m) :
    LbAll c P (readMessage c rx w).2 ∧ ∀ m, (readMessage c rx w).1 = some m → P m := by
  by_cases hl : c.loopback = true
  · obtain ⟨q, hq, hs⟩ := h hl
    obtain ⟨cb, hr, hh⟩ := readMessage_spec hl hq rx
    rw [hr]
    refine ⟨fun _ => ⟨_, hh, ?_⟩, ?_⟩
    · intro m hm
      split at hm
      · simp at hm
      · rcases List.mem_append.mp hm with hm | hm
        · exact hs m (List.mem_of_mem_tail hm)
        · exact hrx m (by simpa using hm)
    · intro m hm
      cases q with
      | nil => exact hrx m (by simpa using hm)
      | cons e q => simp at hm; subst hm; exact hs _ (by simp)
  · rw [readMessage, if_neg hl]
    exact ⟨fun h => absurd h hl, hrx⟩

theorem delivered_append (t t' : List Out) : delivered (t ++ t') = delivered t ++ delivered t' := List.filterMap_append

theorem delivered_of_frames {t : List Out} (h : frames t = []) : delivered t = [] := by
  unfold delivered frames at *
  rw [List.filterMap_eq_nil_iff] at *
  intro o ho
  have := h o ho
  cases o <;> simp_all

/-- Progress of an extended page read. -/
structure Streams (w w' : W) (t : List Out) : Prop where
  out : w'.out = w.out ++ t
  regs : (delivered t).flatMap regsOf ++ pending w'.v.ext = pending w.v.ext
  small : ∀ m ∈ delivered t, (regsOf m) ≠ [] ∧ (regsOf m).length ≤ 4 ∧ ∀ r ∈ regsOf m, ∀ r' ∈ regsOf m, r / 256 = r' / 256
  numbered : numberedFrom w.v.ext.seq (delivered t)
  seq : w'.v.ext.seq = w.v.ext.seq + BitVec.ofNat 8 (delivered t).length

theorem Streams.quiet {w w' : W} {t : List Out} (h1 : w'.out = w.out ++ t) (h2 : delivered t = []) (h3 : w'.v.ext = w.v.ext) :
    Streams w w' t := by
  refine ⟨h1, by rw [h2, h3]; rfl, by rw [h2]; simp, ?_, by rw [h2, h3]; simp⟩
  rw [h2]; intro i h; simp at h

theorem Streams.trans {w w' w'' : W} {t t' : List Out} (h : Streams w w' t) (h' : Streams w' w'' t') : Streams w w'' (t ++ t') := by
  refine ⟨by rw [h'.out, h.out, List.append_assoc], ?_, ?_, ?_, ?_⟩
  · rw [delivered_append, List.flatMap_append, List.append_assoc, h'.regs, h.regs]
  · intro m hm
    rw [delivered_append, List.mem_append] at hm
    exact hm.elim (h.small m) (h'.small m)
  · rw [delivered_append]
    intro i hi
    rw [List.length_append] at hi
    by_cases hl : i < (delivered t).length
    · rw [List.getElem_append_left hl]; exact h.numbered i hl
    · rw [List.getElem_append_right (by omega), h'.numbered _ (by omega), h.seq]
      apply BitVec.eq_of_toNat_eq
      simp only [BitVec.toNat_add, BitVec.toNat_ofNat]
      omega
  · rw [h'.seq, h.seq, delivered_append, List.length_append]
    apply BitVec.eq_of_toNat_eq
    simp only [BitVec.toNat_add, BitVec.toNat_ofNat]
    omega

/-- One response. -/
theorem extRead_streams (c : Ctx) (w : W) (h : 0 < w.v.ext.count.toNat) :
    ∃ t, Streams w (Core.extendedPageReadRegister c w).2 t ∧ (Core.extendedPageReadRegister c w).2.v.st = w.v.st ∧
      (Core.extendedPageReadRegister c w).2.tp.lb = w.tp.lb := by
  obtain ⟨t, vs, e, hr, hf, hl, -⟩ := extRead_run c w h
  have hk4 := chunk_le w.v.ext
  have hk1 := chunk_pos h
  have hka : w.v.ext.addr.toNat + chunk 4 w.v.ext.addr w.v.ext.count ≤ 256 := by
    have := w.v.ext.addr.isLt
    unfold chunk; omega
  rw [hr]
  refine ⟨t ++ [.tx (extFrame c w.v.nick w.v.ext vs) (c.txOk (w.out ++ t).length)], ?_, rfl, rfl⟩
  cases hok : c.txOk (w.out ++ t).length with
  | false =>
    refine Streams.quiet (by simp only [List.append_assoc]) ?_ (by simp)
    rw [delivered_append, delivered_of_frames hf]; rfl
  | true =>
    have hd : delivered (t ++ [Out.tx (extFrame c w.v.nick w.v.ext vs) true]) = [extFrame c w.v.nick w.v.ext vs] := by
      rw [delivered_append, delivered_of_frames hf]; rfl
    have hreg := regsOf_extFrame c w.v.nick w.v.ext vs (by omega)
    rw [hl] at hreg
    refine ⟨by simp only [List.append_assoc], ?_, ?_, ?_, ?_⟩
    · rw [hd]
      simp only [if_true, List.flatMap_cons, List.flatMap_nil, List.append_nil, hreg]
      exact (pending_next h).symm
    · rw [hd]
      intro m hm
      simp only [List.mem_singleton] at hm
      subst hm
      rw [hreg]
      refine ⟨?_, by simpa using hk4, ?_⟩
      · intro hnil
        have := congrArg List.length hnil
        simp at this; omega
      · intro r hr r' hr'
        simp only [List.mem_map, List.mem_range] at hr hr'
        obtain ⟨i, hi, rfl⟩ := hr
        obtain ⟨j, hj, rfl⟩ := hr'
        unfold regNo
        omega
    · rw [hd]
      intro i hi
      simp only [List.length_singleton] at hi
      have : i = 0 := by omega
      subst this
      simp [extFrame, event, bytes8]
    · rw [hd]
      simp [extNext]

/-- What happens before the state machine. -/
theorem preProcess_frame (c : Ctx) (rx : Option Msg) (w : W) : ∃ rxv ep lg x, (preProcess c rx w).2 =
    { (readMessage c rx w).2 with
      v := { w.v with rx := rxv, epoch := ep }
      lg := lg
      tm := { w.tm with rem := fun t => if t = .epoch then x else w.tm.rem t } } := by
  have hself : ∀ r : Tmr → U16, (fun t => if t = Tmr.epoch then r .epoch else r t) = r := by
    intro r; funext t; split
    · rename_i h; rw [h]
    · rfl
  unfold preProcess
  rw [bind_run, bind_run, setV_run, bind_run, get_run]
  obtain ⟨tp, ub, hr⟩ := readMessage_frame' c rx w
  rw [hr]
  generalize (readMessage c rx w).1.getD w.v.rx = rxv
  simp only
  rw [bind_run]
  have hlog : ∃ lg, (whenM (c.logger = true) (Logger.handleEvent c.toCfg rxv)
      { w with v := { w.v with rx := rxv }, tp := tp, ub := ub }).2 =
      { w with v := { w.v with rx := rxv }, tp := tp, ub := ub, lg := lg } := by
    unfold Logger.handleEvent Logger.enable Logger.setLogLevel Ps.readLogId
    simp only [whenM_run, ite_run, bind_run, modify_run, psRead8_run, pure_run]
    repeat' split
    all_goals exact ⟨_, rfl⟩
  obtain ⟨lg, hlg⟩ := hlog
  rw [hlg]
  rw [bind_run, pure_run]
  unfold Core.epochTick
  simp only [bind_run, get_run, timerRunning_run, whenM_run, setV_run, timerStart_run]
  split
  · split
    · exact ⟨rxv, _, lg, 1000, rfl⟩
    · exact ⟨rxv, w.v.epoch + 1, lg, w.tm.rem .epoch, by rw [hself]⟩
  · exact ⟨rxv, w.v.epoch, lg, w.tm.rem .epoch, by rw [hself]⟩

/-- Processing of an event outside of the protocol class. -/
theorem Foot.activeOther {c : Ctx} {m : Msg} (hm : m.cls ≠ 0) :
    Foot c True [.event, .ngVars, .action, .ub] (Core.activeEvent c m) := by
  unfold Core.activeEvent
  rw [if_neg (show ¬ m.cls = Transport.CLASS_PROTOCOL from hm)]
  refine .bind (.one (a := .event) (by decide) fun w => ⟨_, rfl⟩) fun _ => .bind (.whenM fun h => ?_) fun _ => .whenM fun h => ?_
  · exact .mono (.dmExecuteActions (fun _ => trivial)) (by decide)
  · exact .mono (.ngExecuteActions (fun _ => trivial) (fun _ => trivial)) (by decide)

/-- An event outside of the protocol class changes no variable of the core and sends nothing. -/
theorem activeOther_frame {c : Ctx} {m : Msg} (hm : m.cls ≠ 0) (w : W) : ∃ t dm ub,
    (Core.activeEvent c m w).2 = { w with dm := dm, ub := ub, out := w.out ++ t } ∧ frames t = [] := by
  refine (Foot.activeOther hm w).rel (R := fun w w' => ∃ t dm ub, w' = { w with dm := dm, ub := ub, out := w.out ++ t } ∧ frames t = [])
    ?_ ?_ ?_
  · exact fun w => ⟨[], w.dm, w.ub, by simp, rfl⟩
  · rintro w w' w'' ⟨t, dm, ub, rfl, h⟩ ⟨t', dm', ub', rfl, h'⟩
    exact ⟨t ++ t', dm', ub', by simp [List.append_assoc], by rw [frames_append, h, h']; rfl⟩
  · intro a ha w w' hs
    simp only [List.mem_cons, List.not_mem_nil, or_false] at ha
    obtain rfl | rfl | rfl | rfl := ha
    · obtain ⟨m, rfl⟩ := hs; exact ⟨[_], w.dm, w.ub, rfl, rfl⟩
    · obtain ⟨n, i, rfl⟩ := hs; exact ⟨[], { w.dm with ngCnt := n, ngIdx := i }, w.ub, by simp, rfl⟩
    · obtain ⟨i, p, m, rfl⟩ := hs; exact ⟨[_], w.dm, w.ub, rfl, rfl⟩
    · obtain ⟨_, rfl⟩ := hs; exact ⟨[], w.dm, true, by simp, rfl⟩

/-- The periodic heartbeat: nothing, or one call of the application or one frame, and the timer is started again. -/
theorem activeHeartbeat_frame (c : Ctx) (w : W) : ∃ t tp tm ub,
    (Core.activeHeartbeat c w).2 = { w with tp := tp, tm := tm, ub := ub, out := w.out ++ t } ∧
    (∀ m ∈ frames t, m.cls = 20 ∧ m.typ = 9 ∧ m.oAddr = w.v.nick) ∧
    (∀ P, LbAll c P w → (∀ m, m.cls = 20 → m.typ = 9 → m.size = 3 → P m) → LbAll c P (Core.activeHeartbeat c w).2) := by
  unfold Core.activeHeartbeat
  rw [bind_run, get_run, bind_run]
  simp only [timerRunning_run, whenM_run]
  split
  · rw [bind_run]
    by_cases hc : c.customHb = true
    · rw [if_pos hc]
      simp only [emit_run, timerStart_run]
      split
      · exact ⟨[_], w.tp, _, w.ub, rfl, by simp [frames], fun P h _ => h.congr rfl⟩
      · exact ⟨[_], w.tp, w.tm, w.ub, rfl, by simp [frames], fun P h _ => h.congr rfl⟩
    · rw [if_neg hc]
      have hz : ∀ w, (DevData.getZone c w).2 = w := by
        intro w; unfold DevData.getZone Ps.readZone; simp only [ite_run]; split <;> rfl
      have hsz : ∀ w, (DevData.getSubZone c w).2 = w := by
        intro w; unfold DevData.getSubZone Ps.readSubZone; simp only [ite_run]; split <;> rfl
      rw [bind_run, bind_run, bind_run, bind_run, hz, hsz]
      unfold Core.prepareTxMessage Core.sendEvent
      simp only [bind_run, get_run, pure_run]
      generalize hm : Msg.mk _ _ _ _ _ _ _ = m
      obtain ⟨tp, ub, t, hw, ht⟩ := writeMessage_frame c m w
      have hlb : ∀ P, LbAll c P w → (∀ m, m.cls = 20 → m.typ = 9 → m.size = 3 → P m) → LbAll c P (writeMessage c m w).2 := by
        intro P h hp
        exact h.write m (fun _ _ => hp m (by rw [← hm]) (by rw [← hm]) (by rw [← hm]))
      have hfr : ∀ x ∈ frames t, x.cls = 20 ∧ x.typ = 9 ∧ x.oAddr = w.v.nick := by
        intro x hx
        rcases ht with ht | ht
        · rw [ht] at hx
          simp [frames] at hx
          rw [hx, ← hm]
          exact ⟨rfl, rfl, rfl⟩
        · rw [ht.1] at hx; simp [frames] at hx
      rw [timerStart_run]
      rw [hw] at hlb ⊢
      simp only
      split
      · exact ⟨t, tp, _, ub, rfl, hfr, fun P h hp => (hlb P h hp).congr rfl⟩
      · exact ⟨t, tp, w.tm, ub, rfl, hfr, hlb⟩
  · exact ⟨[], w.tp, w.tm, w.ub, by simp, by simp [frames], fun P h _ => h⟩

theorem delivered_other {t : List Out} (h : ∀ m ∈ frames t, m.cls ≠ 0) : delivered t = [] := by
  unfold delivered
  rw [List.filterMap_eq_nil_iff]
  intro o ho
  cases o with
  | tx m ok =>
    have := h m (by unfold frames; rw [List.mem_filterMap]; exact ⟨_, ho, rfl⟩)
    cases ok
    · rfl
    · exact if_neg fun h => this h.1
  | _ => rfl

/-- Every response is at least one frame; a successful one is at least one register. -/
def Progress (c : Ctx) (w w' : W) : Prop :=
  0 < w.v.ext.count.toNat → w.out.length < w'.out.length ∧
    ((∀ i, w.out.length ≤ i → c.txOk i = true) → w'.v.ext.count.toNat < w.v.ext.count.toNat)

theorem extRead_progress (c : Ctx) (w : W) : Progress c w (Core.extendedPageReadRegister c w).2 := by
  intro h
  obtain ⟨t, vs, e, hr, hf, hl, -⟩ := extRead_run c w h
  rw [hr]
  refine ⟨by simp only [List.length_append, List.length_singleton]; omega, fun ho => ?_⟩
  have hk1 := chunk_pos h
  have hkc : chunk 4 w.v.ext.addr w.v.ext.count ≤ w.v.ext.count.toNat := by unfold chunk; omega
  rw [ho _ (by simp)]
  simp only [if_true, extNext, BitVec.toNat_sub, BitVec.toNat_ofNat]
  have := w.v.ext.count.isLt
  omega

/-- The continuation of an extended page read in the active state. -/
theorem activeExtRead_streams (c : Ctx) (w : W) : ∃ t, Streams w (Core.activeExtRead c w).2 t ∧
    (Core.activeExtRead c w).2.v.st = w.v.st ∧ (Core.activeExtRead c w).2.tp.lb = w.tp.lb ∧
    Progress c w (Core.activeExtRead c w).2 := by
  unfold Core.activeExtRead
  rw [bind_run, get_run]
  simp only [ite_run]
  split
  · rename_i h
    rw [bind_run]
    obtain ⟨t, h1, h2, h3⟩ := extRead_streams c w h
    exact ⟨t, h1, h2, h3, extRead_progress c w⟩
  · rename_i h
    exact ⟨[], .quiet (by simp) rfl rfl, rfl, rfl, fun h' => absurd h' h⟩

/-- One process cycle of an active node without protocol events. -/
theorem process_streams {c : Ctx} {rx : Option Msg} {w : W} (ha : w.v.st = .active) (hl : LbAll c (fun m => m.cls ≠ 0) w)
    (hrx : ∀ m, rx = some m → m.cls ≠ 0) : ∃ t, Streams w (Core.process c rx w).2 t ∧ (Core.process c rx w).2.v.st = .active ∧
      LbAll c (fun m => m.cls ≠ 0) (Core.process c rx w).2 ∧ Progress c w (Core.process c rx w).2 := by
  rw [process_split]
  have hr := hl.read rx hrx
  obtain ⟨rxv, ep, lg, x, hp⟩ := preProcess_frame c rx w
  obtain ⟨tp, ub, hrf⟩ := readMessage_frame' c rx w
  have h1o : (preProcess c rx w).2.out = w.out := by rw [hp, hrf]
  have h1e : (preProcess c rx w).2.v.ext = w.v.ext := by rw [hp]
  have h1s : (preProcess c rx w).2.v.st = .active := by rw [hp]; exact ha
  have h1l : LbAll c (fun m => m.cls ≠ 0) (preProcess c rx w).2 := hr.1.congr (by rw [hp])
  rw [preProcess_rx]
  generalize (preProcess c rx w).2 = w1 at *
  generalize (readMessage c rx w).1 = r at *
  have hd : (Core.dispatch c r w1).2 = (Core.stateActive c r w1).2 := by
    unfold Core.dispatch
    rw [bind_run, get_run]
    simp only [h1s]
  rw [hd]
  unfold Core.stateActive
  rw [bind_run, bind_run, bind_run, pure_run]
  have h2 : ∃ t, Streams w (Core.activeEventOpt c r w1).2 t ∧ (Core.activeEventOpt c r w1).2.v.st = .active ∧
      LbAll c (fun m => m.cls ≠ 0) (Core.activeEventOpt c r w1).2 ∧ (Core.activeEventOpt c r w1).2.v.ext = w.v.ext := by
    cases r with
    | none => exact ⟨[], .quiet (by simpa [Core.activeEventOpt] using h1o) rfl h1e, h1s, h1l, h1e⟩
    | some m =>
      obtain ⟨t, dm, ub, hw, hf⟩ := activeOther_frame (c := c) (hr.2 m rfl) w1
      simp only [Core.activeEventOpt]
      rw [hw]
      exact ⟨t, .quiet (by simp [h1o]) (delivered_of_frames hf) h1e, h1s, h1l.congr rfl, h1e⟩
  obtain ⟨t2, h2, h2s, h2l, h2e⟩ := h2
  generalize (Core.activeEventOpt c r w1).2 = w2 at *
  obtain ⟨t3, tp3, tm3, ub3, h3, h3f, h3l⟩ := activeHeartbeat_frame c w2
  have h3s : (Core.activeHeartbeat c w2).2.v = w2.v := by rw [h3]
  have h3' : Streams w2 (Core.activeHeartbeat c w2).2 t3 :=
    .quiet (by rw [h3]) (delivered_other fun m hm => by rw [(h3f m hm).1]; decide) (by rw [h3])
  have h3l := h3l _ h2l (fun m hm _ _ => by rw [hm]; decide)
  generalize (Core.activeHeartbeat c w2).2 = w3 at *
  obtain ⟨t4, h4, h4s, h4l, h4p⟩ := activeExtRead_streams c w3
  refine ⟨t2 ++ t3 ++ t4, (h2.trans h3').trans h4, ?_, h3l.congr h4l, ?_⟩
  · show (Core.activeExtRead c w3).2.v.st = .active
    rw [h4s, h3s, h2s]
  · have he : w3.v.ext = w.v.ext := by rw [h3s, h2e]
    have ho : w.out.length ≤ w3.out.length := by rw [h3'.out, h2.out]; simp only [List.length_append]; omega
    intro hc
    obtain ⟨p1, p2⟩ := h4p (by rw [he]; exact hc)
    rw [he] at p2
    exact ⟨by show w.out.length < (Core.activeExtRead c w3).2.out.length; omega, fun hok => p2 fun i hi => hok i (by omega)⟩

/-- Calls during which an extended page read continues: events outside of the protocol class, time, and the other interface
functions without a protocol event, a new start or a factory restore. -/
def Op.keepsStream : Op → Prop
  | .init _ | .startNodeSegmentInit | .restore => False
  | .process rx => ∀ m, rx = some m → m.cls ≠ 0
  | .sendEvent m => m.cls ≠ 0
  | _ => True

theorem sendLoop_frame (c : Ctx) (m : Msg) (id level e : U8) (msg : List U8) (w : W) : ∃ t tp ub,
    (Logger.sendLoop c m id level e msg w).2 = { w with tp := tp, ub := ub, out := w.out ++ t } ∧
    (∀ x ∈ frames t, x.cls = m.cls) ∧
    (∀ P, LbAll c P w → m.cls = CLASS_LOG → LbAll c P (Logger.sendLoop c m id level e msg w).2) := by
  fun_induction Logger.sendLoop c m id level e msg generalizing w with
  | case1 e msg ih =>
    rw [bind_run]
    obtain ⟨tp, ub, t, hw, ht⟩ := writeMessage_frame c { m with size := 8, data := bytes8 ([id, level, e] ++ msg.take 5) } w
    have hfr : ∀ x ∈ frames t, x.cls = m.cls := by
      intro x hx
      rcases ht with ht | ht
      · rw [ht] at hx
        simp [frames] at hx
        rw [hx]
      · rw [ht.1] at hx; simp [frames] at hx
    have hlb : ∀ P, LbAll c P w → m.cls = CLASS_LOG → LbAll c P (Core.sendEvent c { m with size := 8, data := bytes8 ([id, level, e] ++ msg.take 5) } w).2 := by
      intro P h hm hl
      obtain ⟨q, hq, hs⟩ := h hl
      obtain ⟨h1, -⟩ := writeMessage_queue hl hq { m with size := 8, data := bytes8 ([id, level, e] ++ msg.take 5) }
      rw [if_neg (fun h => h.1.2.2 hm)] at h1
      exact ⟨q, h1, hs⟩
    unfold Core.sendEvent at hlb ⊢
    split
    · rename_i hc
      obtain ⟨t', tp', ub', hw', hf', hl'⟩ := ih _ hc (writeMessage c { m with size := 8, data := bytes8 ([id, level, e] ++ msg.take 5) } w).2
      refine ⟨t ++ t', tp', ub', ?_, ?_, fun P h hm => hl' P (hlb P h hm) hm⟩
      · rw [hw', hw]; simp
      · intro x hx
        rw [frames_append, List.mem_append] at hx
        exact hx.elim (hfr x) (hf' x)
    · refine ⟨t, tp, ub, ?_, hfr, hlb⟩
      rw [pure_run]; exact hw

theorem log_frame (c : Ctx) (id level : U8) (msg : List U8) (w : W) : ∃ t tp ub,
    (Logger.log c id level msg w).2 = { w with tp := tp, ub := ub, out := w.out ++ t } ∧
    (∀ x ∈ frames t, x.cls = CLASS_LOG) ∧ (∀ P, LbAll c P w → LbAll c P (Logger.log c id level msg w).2) := by
  unfold Logger.log
  rw [bind_run, get_run]
  simp only [whenM_run]
  split
  · split
    · obtain ⟨t, tp, ub, h1, h2, h3⟩ := sendLoop_frame c ⟨3, CLASS_LOG, 1, w.v.nick, c.hardCoded, 0, bytes8 []⟩ id level 0 msg w
      exact ⟨t, tp, ub, h1, h2, fun P h => h3 P h rfl⟩
    · exact ⟨[], w.tp, w.ub, by simp, by simp [frames], fun P h => h⟩
  · exact ⟨[], w.tp, w.ub, by simp, by simp [frames], fun P h => h⟩

theorem stepOp_streams {c : Ctx} {op : Op} {w : W} (ha : w.v.st = .active) (hl : LbAll c (fun m => m.cls ≠ 0) w)
    (ho : op.keepsStream) : ∃ t, Streams w (stepOp c op w).2 t ∧ (stepOp c op w).2.v.st = .active ∧
      LbAll c (fun m => m.cls ≠ 0) (stepOp c op w).2 := by
  cases op with
  | init ok => exact ho.elim
  | startNodeSegmentInit => exact ho.elim
  | restore => exact ho.elim
  | process rx =>
    obtain ⟨t, h1, h2, h3, -⟩ := process_streams ha hl ho
    exact ⟨t, h1, h2, h3⟩
  | tick ms => exact ⟨[], .quiet (by simp [stepOp, tickTimers]) rfl rfl, ha, hl.congr rfl⟩
  | setAlarm v => exact ⟨[], .quiet (by simp [stepOp, Core.setAlarm]) rfl rfl, ha, hl.congr rfl⟩
  | setTime t => exact ⟨[], .quiet (by simp [stepOp, Core.setTimeSinceEpoch]) rfl rfl, ha, hl.congr rfl⟩
  | enableHeartbeat b => exact ⟨[], .quiet (by simp [stepOp, Core.enableHeartbeat]) rfl rfl, ha, hl.congr rfl⟩
  | sendEvent m =>
    obtain ⟨tp, ub, t, hw, ht⟩ := writeMessage_frame c m w
    have hfr : ∀ x ∈ frames t, x.cls ≠ 0 := by
      intro x hx
      rcases ht with ht | ht
      · rw [ht] at hx
        simp [frames] at hx
        rw [hx]; exact ho
      · rw [ht.1] at hx; simp [frames] at hx
    have hl2 := hl.write m (fun _ h => h)
    simp only [stepOp, bind_run, Core.sendEvent, pure_run]
    refine ⟨t, ?_, ?_, hl2⟩
    · rw [hw]; exact .quiet rfl (delivered_other hfr) rfl
    · rw [hw]; exact ha
  | getTransmitErrors => exact ⟨[], .quiet (by simp [stepOp, Transport.getTransmitErrors]) rfl rfl, ha, hl.congr rfl⟩
  | loggerEnable b => exact ⟨[], .quiet (by simp [stepOp, Logger.enable]) rfl rfl, ha, hl.congr rfl⟩
  | loggerLevel b => exact ⟨[], .quiet (by simp [stepOp, Logger.setLogLevel]) rfl rfl, ha, hl.congr rfl⟩
  | log id level msg =>
    obtain ⟨t, tp, ub, h1, h2, h3⟩ := log_frame c id level msg w
    have h3 := h3 _ hl
    simp only [stepOp]
    refine ⟨t, ?_, ?_, h3⟩
    · rw [h1]; exact .quiet rfl (delivered_other fun m hm => by rw [h2 m hm]; decide) rfl
    · rw [h1]; exact ha
  | logUInt32 id level x =>
    obtain ⟨t, tp, ub, h1, h2, h3⟩ := log_frame c id level
      [DevData.memByte c x 3, DevData.memByte c x 2, DevData.memByte c x 1, DevData.memByte c x 0] w
    have h3 := h3 _ hl
    simp only [stepOp, Logger.logUInt32]
    refine ⟨t, ?_, ?_, h3⟩
    · rw [h1]; exact .quiet rfl (delivered_other fun m hm => by rw [h2 m hm]; decide) rfl
    · rw [h1]; exact ha

theorem runOps_streams {c : Ctx} (ops : List Op) (ho : ∀ op ∈ ops, op.keepsStream) (w : W) (ha : w.v.st = .active)
    (hl : LbAll c (fun m => m.cls ≠ 0) w) : ∃ t, Streams w (runOps c ops w) t ∧ (runOps c ops w).v.st = .active ∧
      LbAll c (fun m => m.cls ≠ 0) (runOps c ops w) := by
  induction ops generalizing w with
  | nil => exact ⟨[], .quiet (by simp [runOps]) rfl rfl, ha, hl⟩
  | cons op ops ih =>
    obtain ⟨t, h1, h2, h3⟩ := stepOp_streams ha hl (ho op (by simp))
    obtain ⟨t', h1', h2', h3'⟩ := ih (fun o h => ho o (by simp [h])) _ h2 h3
    exact ⟨t ++ t', h1.trans h1', h2', h3'⟩

/-! ### Protocol events in the active state -/

/-- The decision matrices. -/
def runActions (c : Ctx) (m : Msg) : M Unit := do
  whenM c.dm (Dm.executeActions c m)
  whenM c.dmNg (DmNg.executeActions c m)

/-- What an active node does behind the handling of an event: decision matrix, heartbeat, extended page read. -/
def afterEvent (c : Ctx) (m : Msg) : M Unit := do
  whenM c.dm (Dm.executeActions c m)
  whenM c.dmNg (DmNg.executeActions c m)
  Core.activeHeartbeat c
  let _ ← Core.activeExtRead c

/-- The decision matrix only executes actions. -/
theorem Foot.actions {c : Ctx} {m : Msg} : Foot c True [.ngVars, .action, .ub]
    (runActions c m) := by
  unfold runActions
  refine .bind (.whenM fun h => ?_) fun _ => .whenM fun h => ?_
  · exact .mono (.dmExecuteActions (fun _ => trivial)) (by decide)
  · exact .mono (.ngExecuteActions (fun _ => trivial) (fun _ => trivial)) (by decide)

theorem actions_frame (c : Ctx) (m : Msg) (w : W) : ∃ t dm ub,
    ((runActions c m) w).2 =
      { w with dm := dm, ub := ub, out := w.out ++ t } ∧ ∀ o ∈ t, ∃ a p m', o = .action a p m' := by
  refine (Foot.actions w).rel (R := fun w w' => ∃ t dm ub, w' = { w with dm := dm, ub := ub, out := w.out ++ t } ∧
    ∀ o ∈ t, ∃ a p m', o = .action a p m') ?_ ?_ ?_
  · exact fun w => ⟨[], w.dm, w.ub, by simp, by simp⟩
  · rintro w w' w'' ⟨t, dm, ub, rfl, h⟩ ⟨t', dm', ub', rfl, h'⟩
    exact ⟨t ++ t', dm', ub', by simp [List.append_assoc], fun o ho => (List.mem_append.mp ho).elim (h o) (h' o)⟩
  · intro a ha w w' hs
    simp only [List.mem_cons, List.not_mem_nil, or_false] at ha
    obtain rfl | rfl | rfl := ha
    · obtain ⟨n, i, rfl⟩ := hs; exact ⟨[], { w.dm with ngCnt := n, ngIdx := i }, w.ub, by simp, by simp⟩
    · obtain ⟨i, p, m, rfl⟩ := hs; exact ⟨[_], w.dm, w.ub, rfl, by simp⟩
    · obtain ⟨_, rfl⟩ := hs; exact ⟨[], w.dm, true, by simp, by simp⟩

theorem frames_actions {t : List Out} (h : ∀ o ∈ t, ∃ a p m', o = .action a p m') : frames t = [] := by
  unfold frames
  rw [List.filterMap_eq_nil_iff]
  intro o ho
  obtain ⟨a, p, m', rfl⟩ := h o ho
  rfl

/-- The protocol event is passed to the application before it is handled, if this is configured. -/
def notified (c : Ctx) (m : Msg) (w : W) : W :=
  if c.protoNotify then addOut (.protoEvent m (c.protoHandled w.out.length)) w else w

/-- An active node handles a protocol event which the application does not handle itself. -/
theorem process_protocol {c : Ctx} {rx : Option Msg} {m : Msg} {w : W} (ha : w.v.st = .active)
    (hr : (preProcess c rx w).1 = some m) (hm : m.cls = 0)
    (hn : c.protoNotify = true → c.protoHandled (preProcess c rx w).2.out.length = false) :
    (Core.process c rx w).2 =
      (afterEvent c m (Core.handleProtocolClassType c m (notified c m (preProcess c rx w).2)).2).2 := by
  obtain ⟨rxv, ep, lg, x, hp⟩ := preProcess_frame c rx w
  have h1s : (preProcess c rx w).2.v.st = .active := by rw [hp]; exact ha
  rw [process_split, hr]
  generalize (preProcess c rx w).2 = w1 at *
  have hd : (Core.dispatch c (some m) w1).2 = (Core.stateActive c (some m) w1).2 := by
    unfold Core.dispatch
    rw [bind_run, get_run]
    simp only [h1s]
  rw [hd]
  unfold Core.stateActive Core.activeEventOpt Core.activeEvent afterEvent notified
  dsimp only
  rw [if_pos (show m.cls = Transport.CLASS_PROTOCOL from hm)]
  by_cases hpn : c.protoNotify = true
  · rw [if_pos hpn, if_pos hpn]
    simp only [bind_run, get_run, emit_run, whenM_run, hn hpn, pure_run, if_true]
    rfl
  · rw [if_neg hpn, if_neg hpn]
    simp only [bind_run, pure_run]

theorem afterEvent_streams {c : Ctx} {m : Msg} {w : W} (hl : LbAll c (fun m => m.cls ≠ 0) w) :
    ∃ t, Streams w (afterEvent c m w).2 t ∧ (afterEvent c m w).2.v.st = w.v.st ∧ LbAll c (fun m => m.cls ≠ 0) (afterEvent c m w).2 := by
  have e : (afterEvent c m w).2 = (Core.activeExtRead c (Core.activeHeartbeat c
      ((runActions c m) w).2).2).2 := rfl
  rw [e]
  obtain ⟨t, dm, ub, h1, h1f⟩ := actions_frame c m w
  have h1' : Streams w ((runActions c m) w).2 t :=
    .quiet (by rw [h1]) (delivered_of_frames (frames_actions h1f)) (by rw [h1])
  have h1s : ((runActions c m) w).2.v = w.v := by rw [h1]
  have h1l : LbAll c (fun m => m.cls ≠ 0)
      ((runActions c m) w).2 := hl.congr (by rw [h1])
  generalize ((runActions c m) w).2 = w2 at *
  obtain ⟨t3, tp3, tm3, ub3, h3, h3f, h3l⟩ := activeHeartbeat_frame c w2
  have h3s : (Core.activeHeartbeat c w2).2.v = w2.v := by rw [h3]
  have h3' : Streams w2 (Core.activeHeartbeat c w2).2 t3 :=
    .quiet (by rw [h3]) (delivered_other fun m hm => by rw [(h3f m hm).1]; decide) (by rw [h3])
  have h3l := h3l _ h1l (fun m hm _ _ => by rw [hm]; decide)
  generalize (Core.activeHeartbeat c w2).2 = w3 at *
  obtain ⟨t4, h4, h4s, h4l, -⟩ := activeExtRead_streams c w3
  exact ⟨t ++ t3 ++ t4, (h1'.trans h3').trans h4, by rw [h4s, h3s, h1s], h3l.congr h4l⟩

/-- The request of an extended page read. -/
def extRequest (m : Msg) : ExtPageRead where
  page := mkWord m.data[1] m.data[2]
  addr := m.data[3]
  count := if m.size = 5 then (if m.data[4] = 0 then 256 else m.data[4].setWidth 16) else 1
  seq := 0

theorem extRequest_pos (m : Msg) : 0 < (extRequest m).count.toNat := by
  unfold extRequest
  simp only
  split
  · split
    · decide
    · rename_i h
      rw [BitVec.toNat_setWidth]
      have h1 : m.data[4].toNat ≠ 0 := fun e => h (BitVec.eq_of_toNat_eq e)
      have := m.data[4].isLt
      omega
  · decide

/-- A request for the node. -/
theorem request_streams {c : Ctx} {m : Msg} {w : W} (ht : m.typ = 37) (h4 : 4 ≤ m.size.toNat) (h0 : w.v.nick = m.data[0]) :
    ∃ t, Streams { w with v := { w.v with ext := extRequest m } } (Core.handleProtocolClassType c m w).2 t ∧
      (Core.handleProtocolClassType c m w).2.v.st = w.v.st ∧ (Core.handleProtocolClassType c m w).2.tp.lb = w.tp.lb := by
  have e : (Core.handleProtocolClassType c m w).2 =
      (Core.extendedPageReadRegister c { w with v := { w.v with ext := extRequest m } }).2 := by
    unfold Core.handleProtocolClassType
    rw [ht]
    simp only [show BitVec.toNat (37 : U8) = 37 from rfl]
    unfold Core.handleExtendedPageReadRegister
    rw [bind_run, get_run]
    simp only [whenM_run]
    rw [if_pos ⟨h4, h0⟩, bind_run, setV_run]
    rfl
  rw [e]
  exact extRead_streams c { w with v := { w.v with ext := extRequest m } } (extRequest_pos m)

/-- The number of process cycles of a history. -/
def cycles : List Op → Nat
  | [] => 0
  | .process _ :: ops => cycles ops + 1
  | _ :: ops => cycles ops

theorem Streams.count_le {w w' : W} {t : List Out} (h : Streams w w' t) : w'.v.ext.count.toNat ≤ w.v.ext.count.toNat := by
  have := congrArg List.length h.regs
  simp only [List.length_append, pending, requested, List.length_map, List.length_range] at this
  omega

/-- If transmissions do not fail for ever, all registers are sent. -/
theorem runOps_complete {c : Ctx} (N : Nat) (hN : ∀ i, N ≤ i → c.txOk i = true) (ops : List Op) (ho : ∀ op ∈ ops, op.keepsStream)
    (w : W) (ha : w.v.st = .active) (hl : LbAll c (fun m => m.cls ≠ 0) w)
    (hc : (N - w.out.length) + w.v.ext.count.toNat ≤ cycles ops) : (runOps c ops w).v.ext.count.toNat = 0 := by
  induction ops generalizing w with
  | nil => simp only [cycles] at hc; simp only [runOps]; omega
  | cons op ops ih =>
    by_cases h0 : 0 < w.v.ext.count.toNat
    case neg =>
      obtain ⟨t, h1, -, -⟩ := runOps_streams (op :: ops) ho w ha hl
      have := h1.count_le
      omega
    obtain ⟨t, h1, h2, h3⟩ := stepOp_streams ha hl (ho op (by simp))
    refine ih (fun o h => ho o (by simp [h])) _ h2 h3 ?_
    have hle := h1.count_le
    have hout : w.out.length ≤ (stepOp c op w).2.out.length := by rw [h1.out]; simp
    cases op with
    | process rx =>
      obtain ⟨-, -, -, -, hp⟩ := process_streams ha hl (ho (.process rx) (by simp))
      have e : (stepOp c (.process rx) w).2 = (Core.process c rx w).2 := rfl
      rw [e] at hle hout ⊢
      simp only [cycles] at hc
      obtain ⟨p1, p2⟩ := hp h0
      by_cases hNo : N ≤ w.out.length
      · have := p2 (fun i hi => hN i (by omega))
        omega
      · omega
    | _ => simp only [cycles] at hc; omega

end Vscp
