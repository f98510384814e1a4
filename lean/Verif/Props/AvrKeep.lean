/-
Property theorems: an AVR example gives up its nickname only for a reason (C134).
-/
import Verif.Spec.AvrKeep
import Verif.Props.AvrSetNick
import Verif.Props.AvrProbe
import Verif.Props.AvrLoss
import Verif.Props.Wear

namespace Vscp.Avr.Sys
open Vscp.Driver Vscp.Spec Vscp.Spec.AvrSys Vscp.Wear Vscp.Safety
open Vscp.Driver.CanNode (Around)

variable {s : Surr} {a : Nat → Around}

/-! ### The button -/

/-- What the timer knows about the button. -/
structure Pushed (B : List Bool) (y : State) : Prop where
  cnt : ∃ p, B = p ++ List.replicate y.cnt.toNat true
  max : y.cnt.toNat ≤ 100
  pressed : y.pressed = true → ∃ p, B = p ++ List.replicate 101 true

theorem pushed_more {B p : List Bool} {n : Nat} (h : B = p ++ List.replicate n true) : B ++ [true] = (p ++ [true]) ++ List.replicate n true := by
  rw [h, List.append_assoc, List.append_assoc, ← List.replicate_succ', List.singleton_append, ← List.replicate_succ]

theorem pushed_tick {B : List Bool} {y : State} (h : Pushed B y) (b : Bool) : Pushed (B ++ [b]) (timerCb b y) := by
  obtain ⟨⟨p, hp⟩, h2, h3⟩ := h
  unfold timerCb Button.isrAvr
  dsimp only
  cases b with
  | false => exact ⟨⟨B ++ [false], by simp⟩, Nat.zero_le _, fun h => (by cases h)⟩
  | true =>
    simp only [Bool.true_eq_false, if_false]
    split
    · rename_i hc
      have hc' : (100 : Nat) ≤ y.cnt.toNat := hc
      have e : y.cnt.toNat = 100 := Nat.le_antisymm h2 hc'
      refine ⟨⟨p ++ [true], pushed_more hp⟩, h2, fun _ => ⟨p, ?_⟩⟩
      rw [hp, e, List.append_assoc, ← List.replicate_succ']
    · rename_i hc
      have hc' : ¬ (100 : Nat) ≤ y.cnt.toNat := hc
      have e : (y.cnt + 1).toNat = y.cnt.toNat + 1 := by
        rw [BitVec.toNat_add]
        show (y.cnt.toNat + 1) % 256 = _
        omega
      refine ⟨⟨p, ?_⟩, ?_, fun h => ?_⟩
      · show B ++ [true] = p ++ List.replicate (y.cnt + 1).toNat true
        rw [e, List.replicate_succ', ← List.append_assoc, ← hp]
      · show (y.cnt + 1).toNat ≤ 100
        omega
      · obtain ⟨q, hq⟩ := h3 h
        exact ⟨q ++ [true], pushed_more hq⟩

theorem pushed_boot (B : List Bool) (past : List Out) (n : Nat) (ps : Nat → U8) (ctl : CanDrv.State) : Pushed B (boot s past n ps ctl) :=
  ⟨⟨B, by simp [boot]⟩, Nat.zero_le _, fun h => (by cases h)⟩

theorem pushed_does {B : List Bool} {y y1 : State} {mv : Move} (hd : Does s a y mv y1) (h : Pushed B y) : Pushed (B ++ AvrSys.button [mv]) y1 := by
  have h' : Pushed (B ++ []) y := by rw [List.append_nil]; exact h
  cases hd with
  | tick b => exact pushed_tick h b
  | power => exact pushed_boot ..
  | reset m ctl hpc hm' hr => exact pushed_boot ..
  | _ => exact ⟨h'.cnt, h'.max, h'.pressed⟩

/-! ### The handling of an event -/

/-- Writes of registers take the nickname only with the factory settings. -/
theorem writes_keep {c : Ctx} {w w' : W} (hs : Steps c True (.tx :: .ub :: .alarm :: .appRead :: writeActs) w w') :
    ∃ t, w'.out = w.out ++ t ∧ (.portRestore ∈ t ∨ (w'.v.st = w.v.st ∧ w'.v.nick = w.v.nick)) := by
  refine hs.rel (R := fun w w' => ∃ t, w'.out = w.out ++ t ∧ (.portRestore ∈ t ∨ (w'.v.st = w.v.st ∧ w'.v.nick = w.v.nick))) (fun w => ⟨[], by simp, .inr ⟨rfl, rfl⟩⟩) ?_ ?_
  · rintro w w' w'' ⟨t, h1, h2⟩ ⟨t', h3, h4⟩
    refine ⟨t ++ t', by rw [h3, h1, List.append_assoc], ?_⟩
    rcases h2 with h2 | h2
    · exact .inl (List.mem_append_left _ h2)
    · rcases h4 with h4 | h4
      · exact .inl (List.mem_append_right _ h4)
      · exact .inr ⟨h4.1.trans h2.1, h4.2.trans h2.2⟩
  · intro x hx w w' hst
    by_cases hr : x = .restore
    · subst hr
      simp only [Step] at hst
      rw [restore_run] at hst
      subst hst
      exact ⟨_, rfl, .inl (by simp)⟩
    · obtain ⟨t, h1, -⟩ := hst.outs
      have e1 := hst.same .st (by clear hst; revert hr hx; cases x <;> simp [writeActs, Act.touches])
      have e2 := hst.same .nick (by clear hst; revert hr hx; cases x <;> simp [writeActs, Act.touches])
      exact ⟨t, h1, .inr ⟨e1, e2⟩⟩

theorem handler_reason {c : Ctx} (hb : c.bootLoader = false) (hh : c.hbSegment = false) {m : Msg} (hm : m.cls = 0) {w : W} (ha : w.v.st = .active) :
    uses (Core.handleProtocolClassType c m w).2 w.v.nick ∨ Dismissed w (Core.handleProtocolClassType c m w).2 m := by
  by_cases hask : Asks c w m
  · rcases hask with ⟨-, h, -⟩ | ⟨h3, h4, h5⟩ | ⟨ht, hp⟩ | h
    · rw [hh] at h; cases h
    · exact .inr ⟨hm, .inl ⟨h3, by simp [payload, h5], h4⟩⟩
    · have hs0 : 0 < m.size.toNat := by
        by_cases hz : m.size.toNat = 0
        · simp [payload, hz] at hp
        · omega
      have hd : w.v.nick = m.data[0] := by
        have := payload_get' (m := m) hs0 (by decide)
        rw [this] at hp
        exact (Option.some.inj hp).symm
      by_cases h6 : m.typ = 6
      · rw [handler6 h6]
        by_cases hc : m.size = 2 ∧ w.v.nick = m.data[0] ∧ Core.MASTER ≠ m.data[1]
        · obtain ⟨c1, -, c3⟩ := hc
          have hq : payload m = [w.v.nick, m.data[1]] := by
            rw [hd]
            refine List.ext_getElem? fun i => ?_
            have h2 : m.size.toNat = 2 := by rw [c1]; rfl
            match i with
            | 0 => rw [payload_get' (by omega) (by decide)]; rfl
            | 1 => rw [payload_get' (by omega) (by decide)]; rfl
            | i + 2 => simp [payload, h2]
          have hq' : m.data.toList.take 2 = [w.v.nick, m.data[1]] := by rw [← hq, payload, c1]; rfl
          have hset := SetNick.handler_set (c := c) (w := w) (m := m) (v := m.data[1]) ⟨hm, h6, c1, hq'⟩ (fun h => c3 h.symm)
          rw [handler6 h6] at hset
          by_cases hv : m.data[1] = w.v.nick
          · exact .inl ⟨hset.2.1.trans ha, hset.1.trans hv⟩
          · exact .inr ⟨hm, .inr (.inl ⟨h6, _, hq, fun h => c3 h.symm, hv, hset.2.1.trans ha, hset.1⟩)⟩
        · unfold Core.handleSetNicknameId
          rw [M.bind_run, M.get_run, whenM_run, if_neg hc]
          exact .inl ⟨ha, rfl⟩
      by_cases h8 : m.typ = 8
      · by_cases hl : m.size.toNat ≤ 3
        · exact .inr ⟨hm, .inr (.inr (.inl ⟨h8, hp, by simp only [payload, List.length_take]; omega⟩))⟩
        · rw [handler8 h8]
          unfold Core.handleDropNicknameId
          rw [M.bind_run, M.get_run, whenM_run]
          have n1 : ¬ m.size = 1 := fun h => hl (by rw [h]; decide)
          have n2 : ¬ (m.size = 2 ∨ m.size = 3) := fun h => hl (by rcases h with h | h <;> rw [h] <;> decide)
          rw [if_neg n1, if_neg n2]
          split <;> exact .inl ⟨ha, rfl⟩
      by_cases h12 : m.typ = 12
      · left
        have hs : Steps c True [.tx] w (Core.handleEnterBootLoaderMode c m w).2 := by
          unfold Core.handleEnterBootLoaderMode
          rw [hb]
          exact Foot.bind .get (fun _ => .whenM fun _ => .txVoid (.inl (by simp)) (by decide)) w
        rw [handler12 h12]
        exact ⟨(hs.same .st (by decide)).trans ha, hs.same .nick (by decide)⟩
      have hw : m.typ ∈ ([11, 25, 29, 30, 38] : List U8) := by
        simp only [List.mem_cons, List.not_mem_nil, or_false] at ht ⊢
        rcases ht with h | h | h | h | h | h | h | h <;> simp_all
      have hs := handler_foot (c := c) (m := m) w
      have e : Wear.typeActs m.typ = .tx :: .ub :: .alarm :: .appRead :: writeActs := by
        simp only [List.mem_cons, List.not_mem_nil, or_false] at hw
        rcases hw with h | h | h | h | h <;> rw [h] <;> rfl
      rw [e] at hs
      obtain ⟨t, h1, h2 | h2⟩ := writes_keep hs
      · exact .inr ⟨hm, .inr (.inr (.inr (.inr ⟨hw, hp, (factory_of h1).2 h2⟩)))⟩
      · exact .inl ⟨h2.1.trans ha, h2.2⟩
    · exact .inr ⟨hm, .inr (.inr (.inr (.inl h)))⟩
  · have hs := dry_handler hask
    exact .inl ⟨(hs.same .st (by decide)).trans ha, hs.same .nick (by decide)⟩

/-! ### A cycle -/

/-- An active example which runs the framework keeps its nickname, or has heard an event which takes it. -/
theorem cycle_reason (k : Nat) (rx : Option Msg) {w : W} (ha : w.v.st = .active) :
    uses (stepOpC (s.ctx k) (s.cb k) (.process rx) w).2 w.v.nick ∨ ∃ m, rx = some m ∧ Dismissed w (stepOpC (s.ctx k) (s.cb k) (.process rx) w).2 m := by
  cases rx with
  | none =>
    left
    rw [AvrProps.calm_op (s.stack k) (.process none) w fun _ h => .inr (by cases h; rfl)]
    have hr : (Transport.readMessage (s.ctx k) none w).1 = none := rfl
    obtain ⟨w2, hh, h⟩ := active_parts_cycle (c := s.ctx k) (rx := none) ha
    have e2 : w2.v.st = .active ∧ w2.v.nick = w.v.nick := by
      have p1 : (preProcess (s.ctx k) none w).2.v.st = w.v.st := pre_same _ _ _ .st (by decide)
      have p2 : (preProcess (s.ctx k) none w).2.v.nick = w.v.nick := pre_same _ _ _ .nick (by decide)
      cases hh with
      | handler m hr' => rw [hr] at hr'; cases hr'
      | other h hs => exact ⟨(hs.same .st (by decide)).trans (p1.trans ha), (hs.same .nick (by decide)).trans p2⟩
    rcases h with ⟨-, h⟩ | ⟨m, hm, -⟩
    · show uses (Core.process (s.ctx k) none w).2 _
      rw [h]
      have hs := Steps.trans (Foot.mono (B := [.customHb, .tx, .tm .heartbeat, .alarm, .appRead, .ext]) (bad := True) (.activeHeartbeat (c := s.ctx k)) (by decide) w2)
        (Foot.mono (bad := True) (.activeExtRead (c := s.ctx k)) (by decide) _)
      exact ⟨(hs.same .st (by decide)).trans e2.1, (hs.same .nick (by decide)).trans e2.2⟩
    · rw [hr] at hm; cases hm
  | some m =>
    obtain ⟨tp, ub, t, h1, -⟩ := AvrProps.cycle (sz := s.sz) (e := s.env k) (s.stack k) m w ha
    have hs := Steps.trans (Foot.mono (B := [.customHb, .tx, .tm .heartbeat, .alarm, .appRead, .ext]) (bad := True) (.activeHeartbeat (c := Avr.ctx s.sz (s.env k))) (by decide)
        { AvrProps.handled (Avr.ctx s.sz (s.env k)) m w with tp := tp, ub := ub, out := (AvrProps.handled (Avr.ctx s.sz (s.env k)) m w).out ++ t })
      (Foot.mono (bad := True) (.activeExtRead (c := Avr.ctx s.sz (s.env k))) (by decide) _)
    rw [← h1] at hs
    obtain ⟨t', ho, -⟩ := hs.outs
    have e1 := hs.same .st (by decide)
    have e5 := hs.same .nick (by decide)
    simp only [Comp.same] at e1 e5
    have p1 : (preProcess (s.ctx k) (some m) w).2.v.st = w.v.st := pre_same _ _ _ .st (by decide)
    have p2 : (preProcess (s.ctx k) (some m) w).2.v.nick = w.v.nick := pre_same _ _ _ .nick (by decide)
    by_cases hc : m.cls = 0
    · have eh : AvrProps.handled (Avr.ctx s.sz (s.env k)) m w = (Core.handleProtocolClassType (s.ctx k) m (preProcess (s.ctx k) (some m) w).2).2 := by
        unfold AvrProps.handled
        rw [if_pos hc]
      rw [eh] at e1 e5 ho
      rcases handler_reason (c := s.ctx k) rfl rfl hc (p1.trans ha) with h | ⟨-, h⟩
      · rw [p2] at h
        exact .inl ⟨e1.trans h.1, e5.trans h.2⟩
      · refine .inr ⟨m, rfl, hc, ?_⟩
        rw [p2] at h
        rcases h with h | ⟨h6, v, h2, h3, h4, h5⟩ | h | h | ⟨h6, h2, h3⟩
        · exact .inl h
        · exact .inr (.inl ⟨h6, v, h2, h3, h4, e1.trans h5.1, e5.trans h5.2⟩)
        · exact .inr (.inr (.inl h))
        · exact .inr (.inr (.inr (.inl h)))
        · refine .inr (.inr (.inr (.inr ⟨h6, h2, ?_⟩)))
          obtain ⟨t2, h4, -⟩ := (handler_foot (c := s.ctx k) (m := m) (preProcess (s.ctx k) (some m) w).2).outs
          have h5 := (factory_of h4).1 h3
          have h6 : (stepOpC (s.ctx k) (s.cb k) (.process (some m)) w).2.out = w.out ++ (t2 ++ t ++ t') := by
            refine Eq.trans ho ?_
            show (Core.handleProtocolClassType (s.ctx k) m (preProcess (s.ctx k) (some m) w).2).2.out ++ t ++ t' = _
            rw [h4, pre_out]
            simp only [List.append_assoc]
          exact (factory_of h6).2 (List.mem_append_left _ (List.mem_append_left _ h5))
    · left
      have eh : (AvrProps.handled (Avr.ctx s.sz (s.env k)) m w).v = (preProcess (s.ctx k) (some m) w).2.v := by
        unfold AvrProps.handled
        rw [if_neg hc]
        rfl
      rw [eh] at e1 e5
      exact ⟨e1.trans (p1.trans ha), e5.trans p2⟩

/-! ### C134 -/

theorem does_reason {B : List Bool} {l : List Move} (hB : AvrSys.button l = B) {y y1 : State} {mv : Move} {q : U8} (hd : Does s a y mv y1) (hp : Pushed B y) (hu : uses y.fw.w q) :
    uses y1.fw.w q ∨ Reason l mv y y1 := by
  obtain ⟨ha, rfl⟩ := hu
  cases hd with
  | tick b => exact .inl ⟨ha, rfl⟩
  | power => exact .inr (.inl rfl)
  | reset m ctl hpc hm' hr =>
    have := reset_state (c := s.ctx y.fw.life) (cb := s.cb y.fw.life) (AvrProps.cb_ok _) (rx := m) (w := y.fw.w) hr
    rw [ha] at this
    cases this
  | rx f x hc => exact .inl ⟨ha, rfl⟩
  | tx x hc => exact .inl ⟨ha, rfl⟩
  | quiet hpc hp => exact .inl ⟨ha, rfl⟩
  | remember hpc => exact .inl ⟨ha, rfl⟩
  | notDue hpc hz => exact .inl ⟨ha, rfl⟩
  | segInit x hpc hpr hl hc =>
    refine .inr (.inr (.inl ⟨rfl, hB ▸ hp.pressed hpr, ?_⟩))
    have e : (Avr.call s .startNodeSegmentInit y.fw).w = (stepOp (s.ctx y.fw.life) .startNodeSegmentInit y.fw.w).2 :=
      AvrProps.calm_op (s.stack y.fw.life) .startNodeSegmentInit y.fw.w fun rx h => (by cases h)
    show (Avr.call s .startNodeSegmentInit y.fw).w.v.st = _
    rw [e]
    exact ((AvrProps.start_run (s.ctx y.fw.life) y.fw.w).2 (by rw [ha]; decide)).1
  | due x sw hpc hz hsw hc =>
    obtain ⟨k1, -⟩ := AvrProps.tick_call s 250 y.fw
    have e : (later s y.fw).w = (Avr.call s (.tick 250) y.fw).w := by rw [later_w, call_w]
    rw [← e] at k1
    left
    show (later s y.fw).w.v.st = _ ∧ (later s y.fw).w.v.nick = _
    rw [k1]
    exact ⟨ha, rfl⟩
  | cycle m x hpc hm' hr hc =>
    rcases cycle_reason (s := s) y.fw.life m ha with h | ⟨m', rfl, h⟩
    · exact .inl h
    · exact .inr (.inr (.inr ⟨rfl, m', rfl, h⟩))

theorem run_reason : ∀ (l l0 : List Move) {y y' : State} {q : U8}, Inv s y → Pushed (AvrSys.button l0) y → (∀ mv ∈ l, AvrSys.Ok mv) → run s a l y = .ok y' → uses y.fw.w q → ¬ uses y'.fw.w q →
    ∃ l1 mv l2 y1 y2, l = l1 ++ mv :: l2 ∧ run s a l1 y = .ok y1 ∧ move s a y1 mv = .ok y2 ∧ uses y1.fw.w q ∧ ¬ uses y2.fw.w q ∧ Reason (l0 ++ l1) mv y1 y2
  | [], _, y, y', q, _, _, _, hr, hu, hn => by cases hr; exact absurd hu hn
  | mv :: l, l0, y, y', q, hi, hp, hl, hr, hu, hn => by
    rcases move_does (a := a) hi mv (hl _ (List.mem_cons_self ..)) with e | ⟨y1, e, hd, h1⟩
    · simp only [run, e] at hr
      cases hr
    simp only [run, e] at hr
    by_cases hu1 : uses y1.fw.w q
    · have hp1 := pushed_does hd hp
      rw [← button_append] at hp1
      obtain ⟨l1, mv', l2, z1, z2, q1, q2, q3, q4, q5, q6⟩ := run_reason l (l0 ++ [mv]) h1 hp1 (fun mv h => hl mv (List.mem_cons_of_mem _ h)) hr hu1 hn
      refine ⟨mv :: l1, mv', l2, z1, z2, by rw [q1]; rfl, by simp only [run, e]; exact q2, q3, q4, q5, ?_⟩
      rw [List.append_assoc] at q6
      exact q6
    · refine ⟨[], mv, l, y, y1, rfl, rfl, e, hu, hu1, ?_⟩
      rw [List.append_nil]
      exact (does_reason rfl hd hp hu).resolve_left hu1

theorem pushed_run : ∀ (l l0 : List Move) {y y' : State}, Inv s y → (∀ mv ∈ l, AvrSys.Ok mv) → run s a l y = .ok y' → Pushed (AvrSys.button l0) y → Pushed (AvrSys.button (l0 ++ l)) y'
  | [], l0, y, y', _, _, hr, h => by cases hr; rw [List.append_nil]; exact h
  | mv :: l, l0, y, y', hi, hl, hr, h => by
    obtain ⟨y1, hd, h1, hr'⟩ := run_does hi (fun mv h => hl mv (List.mem_cons_of_mem _ h)) (hl _ (List.mem_cons_self ..)) hr
    have := pushed_does hd h
    rw [← button_append] at this
    have := pushed_run l (l0 ++ [mv]) h1 (fun mv h => hl mv (List.mem_cons_of_mem _ h)) hr' this
    rw [List.append_assoc] at this
    exact this

/-- C134: whenever an example uses a nickname and later, in any history, does not use it, there is a step in between in which it gives the nickname up, and there was a reason for it: the power
failed; the button was held for the last 101 ms, and the example looks for a nickname; or it has heard an event in this step which takes the nickname from it. -/
theorem C134_reason {past : List Out} {n : Nat} {ps : Nat → U8} {ctl : CanDrv.State} {l l' : List Move} (hl : ∀ mv ∈ l ++ l', AvrSys.Ok mv) {y y' : State} {q : U8}
    (hr : run s a l (boot s past n ps ctl) = .ok y) (hr' : run s a l' y = .ok y') (hu : uses y.fw.w q) (hn : ¬ uses y'.fw.w q) :
    ∃ l1 mv l2 y1 y2, l' = l1 ++ mv :: l2 ∧ run s a l1 y = .ok y1 ∧ move s a y1 mv = .ok y2 ∧ uses y1.fw.w q ∧ ¬ uses y2.fw.w q ∧ Reason (l ++ l1) mv y1 y2 :=
  have hl1 := fun mv h => hl mv (List.mem_append_left _ h)
  have hi : Inv s y := by
    rcases run_inv (a := a) l (boot_inv past n ps ctl) hl1 with e | ⟨y0, e, h⟩
    · rw [e] at hr; cases hr
    · rw [e] at hr; cases hr; exact h
  run_reason l' l hi (pushed_run l [] (boot_inv past n ps ctl) hl1 hr (pushed_boot ..)) (fun mv h => hl mv (List.mem_append_right _ h)) hr' hu hn

/-- The hypotheses of `C134_reason` are met: the example with the nickname 5 is told another one, drops it, hears another node under it, is told to restore its factory settings, or its button is held for 101 ms. -/
def exLosses : List (List Move) := [exTell, exDrop, [.rx (Spec.CanNode.protocol 3 false 3 5 []), .step], [.rx (Spec.CanNode.protocol 3 false 11 1 [5, 0xA2, 0x55]), .step, .step, .step, .step, .rx (Spec.CanNode.protocol 3 false 11 1 [5, 0xA2, 0xAA]), .step],
  [.power], exTime true 101]

example : (∀ l ∈ exLosses, ∀ mv ∈ exMs false ++ l, AvrSys.Ok mv) ∧ (match exHist (exMs false) with
    | .ok y => decide (y.fw.w.v.st = .active ∧ y.fw.w.v.nick = 5)
    | _ => false) = true ∧
    exLosses.map (fun l => match exHist (exMs false ++ l) with
      | .ok y => (some (y.fw.w.v.st, y.fw.w.v.nick) : Option (St × U8))
      | _ => none) = [some (.active, 9), some (.reset, 0xFF), some (.init, 0xFF), some (.active, 0xFF), some (.startup, 5), some (.init, 0xFF)] := by
  refine ⟨?_, by decide +kernel, by decide +kernel⟩
  intro l hl mv hm
  replace hm := List.mem_append.1 hm
  rcases hm with hm | hm
  · revert mv hm; simp [exMs, AvrSys.Ok]
  · simp only [exLosses, List.mem_cons, List.not_mem_nil, or_false] at hl
    rcases hl with rfl | rfl | rfl | rfl | rfl | rfl
    · revert mv hm; simp [exTell, AvrSys.Ok, Spec.CanDrv.Valid, Spec.CanNode.protocol]
    · revert mv hm; simp [exDrop, AvrSys.Ok, Spec.CanDrv.Valid, Spec.CanNode.protocol]
    · revert mv hm; simp [AvrSys.Ok, Spec.CanDrv.Valid, Spec.CanNode.protocol]
    · revert mv hm; simp [AvrSys.Ok, Spec.CanDrv.Valid, Spec.CanNode.protocol]
    · revert mv hm; simp [AvrSys.Ok]
    · simp only [exTime, List.mem_flatten, List.mem_replicate] at hm
      obtain ⟨_, ⟨-, rfl⟩, h⟩ := hm
      revert mv h; simp [exMs, AvrSys.Ok]

end Vscp.Avr.Sys
