/-
Property theorems: the states of a node and the protocol events which change them (C21, C29 - C33, C35 - C38, C43, C44).

The theorems speak about whole cycles of `vscp_core_process`; the theorems of `Props/Registers.lean` and `Props/Pages.lean` about the
handlers of events apply to these cycles by `takes_process` in `Lemmas/Window.lean`.
-/
import Verif.Lemmas.Cycle
import Verif.Props.Safety

namespace Vscp.States
open M Spec Transport Safety

/-! ### C21: the restore register -/

theorem restoreWrite_unique {m : Msg} {n v v' : U8} (h : restoreWrite m n v) (h' : restoreWrite m n v') : v = v' := by
  obtain ⟨-, -, h⟩ := h
  obtain ⟨-, -, h'⟩ := h'
  rcases h with ⟨ht, h⟩ | ⟨ht, a, i, h1, h2, h3⟩ | ⟨ht, -, -, a, i, h1, h2, h3⟩ <;>
    rcases h' with ⟨ht', h'⟩ | ⟨ht', a', i', h1', h2', h3'⟩ | ⟨ht', -, -, a', i', h1', h2', h3'⟩
  all_goals first
    | (rw [h] at h'; simp at h'; exact h'; done)
    | (rw [ht] at ht'; exact absurd ht' (by decide))
    | skip
  · rw [h1] at h1'; cases h1'
    rw [show i = i' by omega, h3'] at h3
    simpa using h3.symm
  · rw [h1] at h1'; cases h1'
    rw [show i = i' by omega, h3'] at h3
    simpa using h3.symm

/-- C21: in every history, a cycle restores the factory settings only for a drop nickname event with this option, or for a write of
0xAA to the restore register, which comes less than the time-out behind a write of 0x55, without an initialisation in between. -/
theorem C21_only_in_window (c : Ctx) (ok : Tmr → Bool) (ps : Nat → U8) (ops : List Op) (rx : Option Msg) (t : List Out)
    (ht : (Core.process c rx (node c ok ps ops)).2.out = (node c ok ps ops).out ++ t) (hr : .appRestore ∈ t) :
    ∃ m, Takes c rx (node c ok ps ops) m ∧
      (dropWithDefaults m (node c ok ps ops).v.nick ∨
        (restoreWrite m (node c ok ps ops).v.nick 0xAA ∧
          ∃ pre rx' post m', ops = pre ++ .process rx' :: post ∧ Takes c rx' (node c ok ps pre) m' ∧
            restoreWrite m' (node c ok ps pre).v.nick 0x55 ∧ (∀ ok, .init ok ∉ post) ∧ elapsed post < c.multiTimeout.toNat)) := by
  obtain ⟨-, ⟨t', ht', h⟩, -⟩ := process_tr162 c rx (node c ok ps ops)
  have : t = t' := List.append_cancel_left (ht.symm.trans ht')
  subst this
  rcases h hr with ⟨m, h1, h2⟩ | ⟨⟨m, h1, h2⟩, ho⟩
  · exact ⟨m, h1, .inl h2⟩
  · refine ⟨m, h1, .inr ⟨h2, ?_⟩⟩
    rcases ho with ho | ⟨m', h1', h2'⟩
    · have hinit : (stepOp c (.init ok) (powerUp ps)).2.tm.rem .reg162 = 0 := init_rem c ok (powerUp ps) .reg162 (by decide)
      obtain ⟨pre, rx', post, m', e1, e2, e3, e4, e5⟩ := opened162 c ops _ hinit ho.2
      refine ⟨pre, rx', post, m', e1, e2, e3, e4, ?_⟩
      have : ((node c ok ps ops).tm.rem .reg162).toNat ≠ 0 := fun hz => ho.2 (BitVec.eq_of_toNat_eq hz)
      change ((node c ok ps ops).tm.rem .reg162).toNat + _ = _ at e5
      omega
    · have e : m = m' := Option.some.inj (h1.2.1.symm.trans h1'.2.1)
      subst e
      exact absurd (restoreWrite_unique h2 h2') (by decide)

/-- C21: the register itself.  0x55 opens the window if it is closed, 0xAA restores the settings and closes the window if it is open, and
nothing else has any effect. -/
theorem C21_register (c : Ctx) (v : U8) (w : W) :
    let r := Core.writeRegister c 0 0xA2 v w
    let running := w.tm.ok .reg162 && w.tm.rem .reg162 != 0
    (v = 0x55 → running = false → r.2.out = w.out ∧ (w.tm.ok .reg162 = true → r.2.tm.rem .reg162 = c.multiTimeout)) ∧
    (v = 0xAA → running = true → .appRestore ∈ r.2.out.drop w.out.length ∧ r.2.tm.rem .reg162 = 0) ∧
    (¬(v = 0x55 ∧ running = false) → ¬(v = 0xAA ∧ running = true) → r.2 = w) := by
  intro r running
  have e : r.2 = (Core.writeRestoreStdCfg c v w).2 := by
    show (Core.writeRegister c 0 0xA2 v w).2 = _
    unfold Core.writeRegister Core.writeVscpRegister
    rfl
  rw [e]
  unfold Core.writeRestoreStdCfg
  rw [bind_run, timerRunning_run]
  simp only [ite_run]
  refine ⟨?_, ?_, ?_⟩
  · intro hv hr
    rw [if_pos ⟨hv, hr⟩, timerStart_run]
    dsimp only
    split
    · simp
    · rename_i h; exact ⟨rfl, fun h' => absurd h' h⟩
  · intro hv hr
    rw [if_neg (by rw [hv]; simp), if_pos ⟨hv, hr⟩, bind_run, timerStop_run, restore_run]
    have hr' : w.tm.ok .reg162 = true ∧ ¬ w.tm.rem .reg162 = 0#16 := by
      have : (w.tm.ok .reg162 && w.tm.rem .reg162 != 0) = true := hr
      simpa using this
    rw [if_pos hr'.1]
    simp
  · intro h1 h2
    rw [if_neg h1, if_neg h2]
    rfl

/-- C21: a write of 0x55 by an event opens the window for the time-out. -/
theorem C21_opens {c : Ctx} {rx : Option Msg} {w : W} {m : Msg} (h : Takes c rx w m) (hm : Request m 11 [w.v.nick, 0xA2, 0x55])
    (hok : w.tm.ok .reg162 = true) (hc : w.tm.rem .reg162 = 0) :
    (Core.process c rx w).2.tm.rem .reg162 = c.multiTimeout := by
  obtain ⟨w1, t1, -, -, hs, hst⟩ := takes_process h hm.cls
  have e1 := hst.same (.tm .reg162) (by decide)
  refine Eq.trans e1 ?_
  have d0 : m.data[0] = w.v.nick := hm.at 0 (by simp) (by simp)
  have d1 : m.data[1] = 0xA2 := hm.at 1 (by simp) (by simp)
  have d2 : m.data[2] = 0x55 := hm.at 2 (by simp) (by simp)
  have hn : w1.v.nick = w.v.nick := hs .nick (by decide)
  have hrem : w1.tm.rem .reg162 = w.tm.rem .reg162 := hs (.tm .reg162) (by decide)
  have hok1 : w1.tm.ok = w.tm.ok := hs .ok (by decide)
  rw [handler11 hm.typ]
  unfold Core.handleWriteRegister
  rw [bind_run, get_run]
  simp only [whenM_run]
  rw [if_pos ⟨by rw [hm.size]; rfl, by rw [hn, d0]⟩, bind_run, whenM_run, d1, d2]
  have hreg := (C21_register c 0x55 w1).1 rfl (by rw [hok1, hrem, hc]; simp)
  have hrem' := hreg.2 (by rw [hok1]; exact hok)
  split
  · have hf : Steps c True [.tx] (Core.writeRegister c 0 0xA2 0x55 w1).2
        (Core.sendRegisterReadWriteRsp c 0xA2 (Core.writeRegister c 0 0xA2 0x55 w1).1.1 (Core.writeRegister c 0 0xA2 0x55 w1).2).2 :=
      Foot.txVoid (.inr trivial) (by decide) (by decide) _
    exact (hf.same (.tm .reg162) (by decide)).trans hrem'
  · exact hrem'

/-- C21: a write of 0xAA by an event restores the factory settings while the window is open, and closes it. -/
theorem C21_restores {c : Ctx} {rx : Option Msg} {w : W} {m : Msg} (h : Takes c rx w m) (hm : Request m 11 [w.v.nick, 0xA2, 0xAA])
    (hok : w.tm.ok .reg162 = true) (hc : w.tm.rem .reg162 ≠ 0) :
    (∃ t, (Core.process c rx w).2.out = w.out ++ t ∧ .appRestore ∈ t) ∧ (Core.process c rx w).2.tm.rem .reg162 = 0 := by
  obtain ⟨w1, t1, ht1, -, hs, hst⟩ := takes_process h hm.cls
  have e1 := hst.same (.tm .reg162) (by decide)
  obtain ⟨t3, ht3, -⟩ := hst.outs
  have d0 : m.data[0] = w.v.nick := hm.at 0 (by simp) (by simp)
  have d1 : m.data[1] = 0xA2 := hm.at 1 (by simp) (by simp)
  have d2 : m.data[2] = 0xAA := hm.at 2 (by simp) (by simp)
  have hn : w1.v.nick = w.v.nick := hs .nick (by decide)
  have hrem : w1.tm.rem .reg162 = w.tm.rem .reg162 := hs (.tm .reg162) (by decide)
  have hok1 : w1.tm.ok = w.tm.ok := hs .ok (by decide)
  have hreg := (C21_register c 0xAA w1).2.1 rfl (by rw [hok1, hrem, hok]; simpa using hc)
  have key : ∃ t2, (Core.handleProtocolClassType c m w1).2.out = w1.out ++ t2 ∧ .appRestore ∈ t2 ∧
      (Core.handleProtocolClassType c m w1).2.tm.rem .reg162 = 0 := by
    rw [handler11 hm.typ]
    unfold Core.handleWriteRegister
    rw [bind_run, get_run]
    simp only [whenM_run]
    rw [if_pos ⟨by rw [hm.size]; rfl, by rw [hn, d0]⟩, bind_run, whenM_run, d1, d2]
    obtain ⟨-, ⟨t, ht, -⟩, -⟩ := writeRegister_tr162 c 0 0xA2 0xAA w1
    have hmem := hreg.1
    rw [ht, List.drop_left] at hmem
    split
    · have hf : Steps c True [.tx] (Core.writeRegister c 0 0xA2 0xAA w1).2
          (Core.sendRegisterReadWriteRsp c 0xA2 (Core.writeRegister c 0 0xA2 0xAA w1).1.1 (Core.writeRegister c 0 0xA2 0xAA w1).2).2 :=
        Foot.txVoid (.inr trivial) (by decide) (by decide) _
      obtain ⟨t', ht', -⟩ := hf.outs
      exact ⟨t ++ t', by rw [ht', ht, List.append_assoc], List.mem_append_left _ hmem, (hf.same (.tm .reg162) (by decide)).trans hreg.2⟩
    · exact ⟨t, ht, hmem, hreg.2⟩
  obtain ⟨t2, ht2, hm2, hr2⟩ := key
  exact ⟨⟨t1 ++ (t2 ++ t3), by rw [ht3, ht2, ht1]; simp only [List.append_assoc], by simp [hm2]⟩, e1.trans hr2⟩

/-- The sequence of the example restores the settings when the second write comes 999 ms behind the first one, and not after
1000 ms. -/
example : ((node Ex.ctx allOk (mem 0x60) [.process none, .process (some (Ex.msg 0 11 9 [5, 0xA2, 0x55])), .tick 999,
      .process (some (Ex.msg 0 11 9 [5, 0xA2, 0xAA]))]).out.contains .appRestore,
    (node Ex.ctx allOk (mem 0x60) [.process none, .process (some (Ex.msg 0 11 9 [5, 0xA2, 0x55])), .tick 1000,
      .process (some (Ex.msg 0 11 9 [5, 0xA2, 0xAA]))]).out.contains .appRestore) = (true, false) := by decide +kernel

/-! ### C29: events for other nodes -/

/-- C29: the handling of an event for another node changes nothing at all, and makes no call. -/
theorem C29_handler (c : Ctx) (m : Msg) (w : W) (ht : m.typ ∈ addressed) (hn : ¬ concerns m w.v.nick) :
    Core.handleProtocolClassType c m w = ((), w) := by
  have hn0 : 0 < m.size.toNat → ¬ w.v.nick = m.data[0] := by
    intro h e
    exact hn (.inl (by rw [payload_get h, e]; simp))
  have hnff : m.typ = 31 → 0 < m.size.toNat → ¬ Core.NOT_INIT = m.data[0] := by
    intro h31 h e
    refine hn (.inr ⟨h31, ?_⟩)
    rw [payload_get h, show (0xFF : U8) = m.data[0] from e]; simp
  have hk : ∀ (k : Nat), 0 < k → k < 256 → m.size = BitVec.ofNat 8 k → ¬ w.v.nick = m.data[0] := by
    intro k h1 h2 h
    apply hn0
    rw [h, BitVec.toNat_ofNat]; omega
  simp only [addressed, List.mem_cons, List.not_mem_nil, or_false] at ht
  rcases ht with ht | ht | ht | ht | ht | ht | ht | ht | ht | ht | ht | ht | ht
  · rw [handler6 ht, Core.handleSetNicknameId, bind_run, get_run, whenM_run, if_neg]
    exact fun h => hk 2 (by omega) (by omega) h.1 h.2.1
  · rw [handler8 ht, Core.handleDropNicknameId, bind_run, get_run, whenM_run, if_neg]
    exact fun h => hn0 h.1 h.2
  · rw [handler9 ht, Core.handleReadRegister, bind_run, get_run, whenM_run, if_neg]
    exact fun h => hk 2 (by omega) (by omega) h.1 h.2
  · rw [handler11 ht, Core.handleWriteRegister, bind_run, get_run, whenM_run, if_neg]
    exact fun h => hk 3 (by omega) (by omega) h.1 h.2
  · rw [handler12 ht, Core.handleEnterBootLoaderMode, bind_run, get_run, whenM_run, if_neg]
    exact fun h => hk 8 (by omega) (by omega) h.1 h.2
  · rw [handler24 ht, Core.handlePageRead, bind_run, get_run, whenM_run, if_neg]
    exact fun h => hk 3 (by omega) (by omega) h.1 h.2
  · rw [handler25 ht, Core.handlePageWrite, bind_run, get_run, whenM_run, if_neg]
    exact fun h => hn0 (Nat.lt_of_lt_of_le (by omega) h.1) h.2
  · rw [handler29 ht, Core.handleIncrementRegister, bind_run, get_run, whenM_run, if_neg]
    exact fun h => hk 2 (by omega) (by omega) h.1 h.2
  · rw [handler30 ht, Core.handleDecrementRegister, bind_run, get_run, whenM_run, if_neg]
    exact fun h => hk 2 (by omega) (by omega) h.1 h.2
  · rw [handler31 ht, Core.handleWhoIsThere, bind_run, get_run, whenM_run, if_neg]
    exact fun h => h.2.elim (hk 1 (by omega) (by omega) h.1) (hnff ht (by rw [h.1]; decide))
  · rw [handler33 ht, Core.handleGetDecisionMatrixInfo, bind_run, get_run, whenM_run, if_neg]
    exact fun h => hk 1 (by omega) (by omega) h.1 h.2
  · rw [handler37 ht, Core.handleExtendedPageReadRegister, bind_run, get_run, whenM_run, if_neg]
    exact fun h => hn0 (Nat.lt_of_lt_of_le (by omega) h.1) h.2
  · rw [handler38 ht, Core.handleExtendedPageWriteRegister, bind_run, get_run, whenM_run, if_neg]
    exact fun h => hn0 (Nat.lt_of_lt_of_le (by omega) h.1) h.2

/-- C29: a cycle with an event for another node.  The node keeps nickname, state, page, stored data and timers.  It may execute actions of the
decision matrix and send the periodic heartbeat; without an extended page read in progress this is all. -/
theorem C29_cycle {c : Ctx} {rx : Option Msg} {w : W} {m : Msg} (h : Takes c rx w m) (hm : m.cls = 0) (ht : m.typ ∈ addressed)
    (hn : ¬ concerns m w.v.nick) :
    let w' := (Core.process c rx w).2
    (w'.v.nick = w.v.nick ∧ w'.v.st = w.v.st ∧ w'.v.page = w.v.page ∧ w'.ps = w.ps ∧ w'.v.guidSt = w.v.guidSt ∧
      (∀ t, t ≠ .epoch → t ≠ .heartbeat → w'.tm.rem t = w.tm.rem t)) ∧
    ∃ t, w'.out = w.out ++ t ∧
      (∀ f ∈ frames t, (f.cls = 20 ∧ f.typ = 9) ∨ (f.cls = 0 ∧ f.typ = 39 ∧ 0 < w.v.ext.count.toNat)) ∧
      (w.v.ext.count.toNat = 0 → w'.v.alarm = w.v.alarm ∧ w'.v.ext = w.v.ext ∧
        ∀ o ∈ t, (∃ m b, o = .protoEvent m b) ∨ (∃ a p m, o = .action a p m) ∨ o = .customHeartbeat ∨ ∃ f ok, o = .tx f ok) := by
  intro w'
  obtain ⟨w1, t1, ht1, ho1, hs, htail⟩ := takes_cycle h hm
  have hn1 : w1.v.nick = w.v.nick := hs .nick (by decide)
  rw [C29_handler c m w1 ht (by rw [hn1]; exact hn)] at htail
  have hext : w1.v.ext = w.v.ext := hs .ext (by decide)
  refine ⟨⟨?_, ?_, ?_, ?_, ?_, ?_⟩, ?_⟩
  · exact (htail.steps.same .nick (by decide)).trans (hs .nick (by decide))
  · exact (htail.steps.same .st (by decide)).trans (hs .st (by decide))
  · exact (htail.steps.same .page (by decide)).trans (hs .page (by decide))
  · exact (htail.steps.same .ps (by decide)).trans (hs .ps (by decide))
  · exact (htail.steps.same .guid (by decide)).trans (hs .guid (by decide))
  · intro t h1 h2
    refine Eq.trans (htail.steps.same (.tm t) ?_) (hs (.tm t) ?_)
    · cases t <;> first | rfl | exact absurd rfl h2
    · cases t <;> first | rfl | exact absurd rfl h1
  · obtain ⟨t2, ht2, hf2⟩ := htail.sends
    refine ⟨t1 ++ t2, by rw [ht2, ht1, List.append_assoc], ?_, ?_⟩
    · rw [frames_append, frames_proto ho1, List.nil_append]
      intro f hf
      rcases hf2 f hf with h | h
      · exact .inl ⟨h.1, h.2.1⟩
      · exact .inr ⟨h.1, h.2.1, by rw [← hext]; exact h.2.2.2⟩
    · intro hc
      have hq := htail.quiet (by rw [hext]; exact hc)
      refine ⟨(hq.same .alarm (by decide)).trans (hs .alarm (by decide)), (hq.same .ext (by decide)).trans (hs .ext (by decide)), ?_⟩
      obtain ⟨t3, ht3, ho3⟩ := hq.outs
      have : t2 = t3 := List.append_cancel_left (ht2.symm.trans ht3)
      subst this
      intro o ho
      rcases List.mem_append.mp ho with ho | ho
      · obtain ⟨b, rfl⟩ := ho1 o ho; exact .inl ⟨_, _, rfl⟩
      · obtain ⟨a, ha, he⟩ := ho3 o ho
        simp only [List.mem_cons, List.not_mem_nil, or_false] at ha
        rcases ha with rfl | rfl | rfl | rfl | rfl | rfl
        · exact he.elim
        · exact .inr (.inl he)
        · exact he.elim
        · exact .inr (.inr (.inl he))
        · exact .inr (.inr (.inr he))
        · exact he.elim

/-- A register write for node 7 is taken by node 5 without effect. -/
example : let w := node Ex.ctx allOk (mem 0x60) [.process none]
    Takes Ex.ctx (some (Ex.msg 0 11 9 [7, 0x84, 1])) w (Ex.msg 0 11 9 [7, 0x84, 1]) ∧ ¬ concerns (Ex.msg 0 11 9 [7, 0x84, 1]) w.v.nick ∧
    (Core.process Ex.ctx (some (Ex.msg 0 11 9 [7, 0x84, 1])) w).2.out = w.out := by
  refine ⟨⟨by decide +kernel, by decide +kernel, by decide +kernel⟩, ?_, by decide +kernel⟩
  have : (node Ex.ctx allOk (mem 0x60) [.process none]).v.nick = 5 := by decide +kernel
  rw [this]
  rintro (h | h) <;> revert h <;> decide +kernel

/-! ### C30: defence of the nickname -/

/-- C30: a probe for the own nickname is answered in the same cycle. -/
theorem C30_answers {c : Ctx} {rx : Option Msg} {w : W} {m : Msg} (h : Takes c rx w m) (hm : Request m 2 [w.v.nick]) :
    ∃ t1 t2, (Core.process c rx w).2.out = w.out ++ t1 ++ [.tx (event c w.v.nick 0 3 []) (c.txOk (w.out ++ t1).length)] ++ t2 ∧ frames t1 = [] ∧
      (Core.process c rx w).2.v.nick = w.v.nick ∧ (Core.process c rx w).2.v.st = .active := by
  obtain ⟨w1, t1, ht1, ho1, hs, htail⟩ := takes_cycle h hm.cls
  have hn1 : w1.v.nick = w.v.nick := hs .nick (by decide)
  have d0 : m.data[0] = w.v.nick := hm.at 0 (by simp) (by simp)
  have e : Core.handleProtocolClassType c m w1 = ((), sent c (event c w.v.nick 0 3 []) w1) := by
    rw [handler2 hm.typ, Core.handleNewNodeOnline, bind_run, get_run, whenM_run, if_pos ⟨by rw [hm.size]; rfl, by rw [hn1, d0]⟩,
      txVoid_run c 0 3 [] (by decide) w1, ← hn1]
  rw [e] at htail
  obtain ⟨t2, ht2, -⟩ := htail.sends
  rw [sent_out, ht1] at ht2
  refine ⟨t1, t2, ht2, frames_proto ho1, ?_, ?_⟩
  · refine (htail.steps.same .nick (by decide)).trans ?_
    rw [sent_v]; exact hn1
  · refine (htail.steps.same .st (by decide)).trans ?_
    rw [sent_v]; exact (hs .st (by decide)).trans h.1

theorem frame_of_mem {t : List Out} {f : Msg} {ok : Bool} (h : .tx f ok ∈ t) : f ∈ frames t := by
  unfold frames
  rw [List.mem_filterMap]
  exact ⟨_, h, rfl⟩

theorem payload_of_size {m : Msg} {n : U8} (hs : m.size = 1) (hd : m.data[0] = n) (hm : m.cls = 0) {typ : U8} (ht : m.typ = typ) :
    Request m typ [n] := by
  refine ⟨hm, ht, by rw [hs]; rfl, ?_⟩
  have := vec8_list m.data
  rw [this]
  simp [hd]

/-- C30: a cycle of an active node transmits a probe acknowledge only for a probe of its own nickname, and with this nickname
as origin. -/
theorem C30_only_own {c : Ctx} {rx : Option Msg} {w : W} {t : List Out} {f : Msg} {ok : Bool} (ha : w.v.st = .active)
    (ht : (Core.process c rx w).2.out = w.out ++ t) (hf : .tx f ok ∈ t) (hc : f.cls = 0) (h3 : f.typ = 3) :
    ∃ m, Takes c rx w m ∧ Request m 2 [w.v.nick] ∧ f = event c w.v.nick 0 3 [] := by
  have notTail : ∀ {w1 w2 : W}, Tail c w1 w2 → ∀ t2, w2.out = w1.out ++ t2 → .tx f ok ∉ t2 := by
    intro w1 w2 htail t2 ht2 hm
    obtain ⟨t3, ht3, hf3⟩ := htail.sends
    have : t2 = t3 := List.append_cancel_left (ht2.symm.trans ht3)
    subst this
    rcases hf3 f (frame_of_mem hm) with h | h
    · rw [h.1] at hc; exact absurd hc (by decide)
    · rw [h.2.1] at h3; exact absurd h3 (by decide)
  by_cases hex : ∃ m, m.cls = 0 ∧ Takes c rx w m
  · obtain ⟨m, hm, htk⟩ := hex
    obtain ⟨w1, t1, ht1, ho1, hs, htail⟩ := takes_cycle htk hm
    have hn1 : w1.v.nick = w.v.nick := hs .nick (by decide)
    obtain ⟨t3, ht3, -⟩ := htail.sends
    have hnot1 : .tx f ok ∉ t1 := fun h => by obtain ⟨b, hb⟩ := ho1 _ h; cases hb
    have h12 : m.typ ≠ 12 := by
      intro h12
      have hcall : Calls (fun o => ∀ f ok, o = .tx f ok → f.cls = 0 ∧ f.typ = 14) (Core.handleProtocolClassType c m) := by
        rw [handler12 h12]
        have htx : Calls (fun o => ∀ f ok, o = .tx f ok → f.cls = 0 ∧ f.typ = 14) (Core.txVoid c 3 14 [0]) :=
          (Calls.txVoid (T := [14]) (by decide)).mono fun o ho f ok e => by simpa using ho.1 f ok e
        have hsil : ∀ {α : Type} {A : List Act} {x : M α}, Foot c True A x → A.all Act.silent = true →
            Calls (fun o => ∀ f ok, o = .tx f ok → f.cls = 0 ∧ f.typ = 14) x := fun hf h =>
          (Calls.silent (T := [14]) hf h).mono fun o ho f ok e => by simpa using ho.1 f ok e
        refine .bind .get fun _ => .whenM fun _ => .ite (fun _ => ?_) fun _ => htx
        refine .bind (hsil (A := []) (.guidRead _) rfl) fun _ => .bind (hsil (A := []) (.guidRead _) rfl) fun _ =>
          .bind (hsil (A := []) (.guidRead _) rfl) fun _ => .bind (hsil (A := []) (.guidRead _) rfl) fun _ => .ite (fun _ => htx) fun _ =>
          .bind (hsil (A := [Act.st .idle, .idleEntered]) (.changeToStateIdle (by decide)) rfl) fun _ => .bind ?_ fun _ =>
          .emit (by simp)
        exact fun w => ⟨[.psW (Ps.addrBootFlag c) 0xBB], rfl, by simp⟩
      obtain ⟨t2, ht2, ho2⟩ := hcall w1
      rw [ht3, ht2, ht1] at ht
      have : t = t1 ++ t2 ++ t3 := by simpa only [List.append_assoc, List.append_cancel_left_eq] using ht.symm
      subst this
      simp only [List.mem_append] at hf
      rcases hf with (hf | hf) | hf
      · exact hnot1 hf
      · rw [(ho2 _ hf f ok rfl).2] at h3; exact absurd h3 (by decide)
      · exact notTail htail t3 ht3 hf
    obtain ⟨t2, ht2, ho2⟩ := Calls.handler (c := c) h12 w1
    have hmem : .tx f ok ∈ t2 := by
      rw [ht3, ht2, ht1] at ht
      have : t = t1 ++ t2 ++ t3 := by simpa only [List.append_assoc, List.append_cancel_left_eq] using ht.symm
      subst this
      simp only [List.mem_append] at hf
      rcases hf with (hf | hf) | hf
      · exact absurd hf hnot1
      · exact hf
      · exact absurd hf (notTail htail t3 ht3)
    have hresp := ((ho2 _ hmem).1 f ok rfl).2
    rw [h3] at hresp
    have h2 : m.typ = 2 := by
      have : ∀ x : U8, 3 ∈ responses x → x = 2 := by decide +kernel
      exact this _ hresp
    rw [handler2 h2, Core.handleNewNodeOnline, bind_run, get_run, whenM_run] at ht2
    split at ht2
    · rename_i hc2
      rw [txVoid_run c 0 3 [] (by decide) w1, sent_out] at ht2
      have : t2 = [.tx (event c w.v.nick 0 3 []) (c.txOk w1.out.length)] := by
        rw [← hn1]
        exact (List.append_cancel_left ht2).symm
      rw [this] at hmem
      simp only [List.mem_singleton, Out.tx.injEq] at hmem
      exact ⟨m, htk, payload_of_size hc2.1 (by rw [← hn1, hc2.2]) hm h2, hmem.1⟩
    · have : t2 = [] := List.append_cancel_left (ht2.symm.trans (List.append_nil _).symm)
      rw [this] at hmem
      simp at hmem
  · obtain ⟨w1, t1, ht1, ho1, hs, htail⟩ := other_cycle (c := c) (rx := rx) ha (fun m hm htk => hex ⟨m, hm, htk⟩)
    obtain ⟨t3, ht3, -⟩ := htail.sends
    rw [ht3, ht1] at ht
    have : t = t1 ++ t3 := by simpa only [List.append_assoc, List.append_cancel_left_eq] using ht.symm
    subst this
    rcases List.mem_append.mp hf with hf | hf
    · rcases ho1 _ hf with ⟨_, _, h⟩ | ⟨_, h⟩ <;> cases h
    · exact absurd hf (notTail htail t3 ht3)

/-- Node 5 answers the probe for 5, and not the one for 6. -/
example : let w := node Ex.ctx allOk (mem 0x60) [.process none]
    (Core.process Ex.ctx (some (Ex.msg 0 2 0xFF [5])) w).2.out = w.out ++ [.tx (event Ex.ctx 5 0 3 []) true] ∧
    (Core.process Ex.ctx (some (Ex.msg 0 2 0xFF [6])) w).2.out = w.out := by
  refine ⟨by decide +kernel, by decide +kernel⟩

/-! ### C43: the result of a cycle -/

/-- C43: the result is TRUE iff an event was received in this cycle, or the node is active and an extended page read is in progress. -/
theorem C43_result (c : Ctx) (rx : Option Msg) (w : W) :
    (Core.process c rx w).1 = true ↔
      (∃ m, (readMessage c rx w).1 = some m) ∨ (w.v.st = .active ∧ 0 < w.v.ext.count.toNat) := by
  rw [process_split, preProcess_rx]
  have hst : (preProcess c rx w).2.v.st = w.v.st := pre_same c rx w .st (by decide)
  have hext : (preProcess c rx w).2.v.ext = w.v.ext := pre_same c rx w .ext (by decide)
  generalize (preProcess c rx w).2 = w1 at *
  cases hr : (readMessage c rx w).1 with
  | some m => simp
  | none =>
    simp only [Option.isSome_none, Bool.false_or, reduceCtorEq, exists_false, false_or]
    rw [← hst, ← hext]
    unfold Core.dispatch
    rw [bind_run, get_run]
    dsimp only
    cases hs : w1.v.st with
    | active =>
      obtain ⟨t, tp, tm, ub, hh, -, -⟩ := activeHeartbeat_frame c w1
      unfold Core.stateActive Core.activeEventOpt Core.activeExtRead
      simp only [bind_run, pure_run, get_run, ite_run, Option.isSome_none, Bool.false_or]
      rw [hh]
      dsimp only
      split <;> simp_all
    | _ => simp

/-- Both reasons occur, and neither. -/
example : let w := node Ex.ctx allOk (mem 0x60) [.process none]
    (Core.process Ex.ctx (some (Ex.msg 10 6 1 [1])) w).1 = true ∧ (Core.process Ex.ctx none w).1 = false ∧
    (Core.process Ex.ctx none (Core.process Ex.ctx (some (Ex.msg 0 37 9 [5, 0, 0, 0x80, 9])) w).2).1 = true := by
  refine ⟨by decide +kernel, by decide +kernel, by decide +kernel⟩

end Vscp.States
