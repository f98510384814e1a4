/-
Decision matrix: C48 (when a row fires), C49 (every row once, in order).
-/
import Verif.Lemmas.Dm
import Verif.Lemmas.Trace
import Verif.Lemmas.OpSteps
import Verif.Props.Safety

namespace Vscp.DmProps
open M Vscp.Spec Vscp.Spec.Dm Transport Vscp.Safety

/-! ### C48 -/

theorem inZone_payload {m : Msg} {k : Nat} {z : U8} (h0 : ZoneInByte0 m.cls.toNat m.typ.toNat → k < m.size.toNat)
    (h1 : ZoneInByte1 m.cls.toNat m.typ.toNat → k + 1 < m.size.toNat) :
    InZone m m.data.toList k z ↔ InZone m (payload m) k z := by
  unfold InZone ZoneByte payload
  have e0 : (ZoneInByte0 m.cls.toNat m.typ.toNat) → (m.data.toList.take m.size.toNat)[k]? = m.data.toList[k]? :=
    fun h => List.getElem?_take_of_lt (h0 h)
  have e1 : (ZoneInByte1 m.cls.toNat m.typ.toNat) → (m.data.toList.take m.size.toNat)[k + 1]? = m.data.toList[k + 1]? :=
    fun h => List.getElem?_take_of_lt (h1 h)
  constructor
  · rintro ⟨x, ⟨h, hx⟩ | ⟨h, hx⟩, hz⟩
    · exact ⟨x, .inl ⟨h, by rw [e0 h]; exact hx⟩, hz⟩
    · exact ⟨x, .inr ⟨h, by rw [e1 h]; exact hx⟩, hz⟩
  · rintro ⟨x, ⟨h, hx⟩ | ⟨h, hx⟩, hz⟩
    · exact ⟨x, .inl ⟨h, by rw [← e0 h]; exact hx⟩, hz⟩
    · exact ⟨x, .inr ⟨h, by rw [← e1 h]; exact hx⟩, hz⟩

theorem fires_payload {ext : Bool} {z s : U8} {row x : Nat → U8} {m : Msg} (h : Complete row m) :
    Fires ext z s row x m m.data.toList ↔ Fires ext z s row x m (payload m) := by
  constructor
  · rintro ⟨a, b, d, e, f, g, i, j, k, l, n, o⟩
    exact ⟨a, b, d, e, fun q => (inZone_payload (h.zone0 q) (h.zone1 q)).mp (f q),
      fun q => (inZone_payload (h.sub0 q) (h.sub1 q)).mp (g q), i, j, k, l, n, o⟩
  · rintro ⟨a, b, d, e, f, g, i, j, k, l, n, o⟩
    exact ⟨a, b, d, e, fun q => (inZone_payload (h.zone0 q) (h.zone1 q)).mpr (f q),
      fun q => (inZone_payload (h.sub0 q) (h.sub1 q)).mpr (g q), i, j, k, l, n, o⟩

/-- C48: a row fires exactly as specified, and then calls the application once; otherwise nothing happens.  Missing: an event which is
too short to carry the zone the row asks for, see `C48_violated`. -/
theorem C48_row_partial (c : Cfg) (m : Msg) (i : Nat) (w : W) (hdm : c.dm = true) (hi : i < c.dmRows)
    (hc : Complete ((matrix c w.ps).row i) m) :
    let x := matrix c w.ps
    (Fires x.ext x.zone x.subZone (x.row i) (x.extRow i) m (payload m) →
      (Dm.execRow c m i w).2 = { w with out := w.out ++ [call x.ext (x.row i) (x.extRow i) m] }) ∧
    (¬ Fires x.ext x.zone x.subZone (x.row i) (x.extRow i) m (payload m) → (Dm.execRow c m i w).2 = w) := by
  intro x
  rw [execRow_run c m i w hdm hi]
  unfold rowCalls
  constructor
  · intro h
    rw [if_pos ((fires_payload hc).mpr h)]
    rfl
  · intro h
    rw [if_neg (fun h' => h ((fires_payload hc).mp h'))]
    simp

/-! ### C49 -/

theorem actions_append (t t' : List Out) : actions (t ++ t') = actions t ++ actions t' := by
  unfold actions; exact List.filter_append ..

theorem actions_none {t : List Out} (h : ∀ o ∈ t, ∀ a p m, o ≠ .action a p m) : actions t = [] := by
  unfold actions
  rw [List.filter_eq_nil_iff]
  intro o ho
  cases o with
  | action a p m => exact absurd rfl (h _ ho a p m)
  | _ => simp

theorem actions_all {t : List Out} (h : ∀ o ∈ t, ∃ a p m, o = .action a p m) : actions t = t := by
  unfold actions
  rw [List.filter_eq_self]
  intro o ho
  obtain ⟨a, p, m, rfl⟩ := h o ho
  rfl

theorem calls_action (x : Matrix) (m : Msg) (d : List U8) : ∀ o ∈ calls x m d, ∃ a p, o = .action a p m := by
  intro o ho
  unfold calls at ho
  rw [List.mem_filterMap] at ho
  obtain ⟨i, -, h⟩ := ho
  split at h
  · unfold call at h
    simp only [Option.some.injEq] at h
    split at h
    · exact ⟨_, _, h.symm⟩
    · exact ⟨_, _, h.symm⟩
  · cases h

theorem Steps.noAction {c : Ctx} {bad : Prop} {A : List Act} {w w' : W} (hs : Steps c bad A w w') (h : Act.action ∉ A) :
    ∃ t, w'.out = w.out ++ t ∧ actions t = [] := by
  obtain ⟨t, h1, h2⟩ := hs.outs
  refine ⟨t, h1, actions_none fun o ho a p m e => ?_⟩
  obtain ⟨x, hx, he⟩ := h2 o ho
  subst e
  cases x with
  | action => exact h hx
  | _ => simp [Act.emits] at he

/-- A cycle of an active node which receives an event: handling (`t0`), actions, and the rest. -/
theorem action_cycle (c : Ctx) (rx : Option Msg) (m : Msg) (w : W)
    (ha : w.v.st = .active) (hr : (readMessage c rx w).1 = some m) (hm : m.size.toNat ≤ 8) :
    ∃ t0 w2 t1, w2.out = w.out ++ t0 ∧ w2.ps = memAfter w.ps t0 ∧ actions t0 = [] ∧ (m.cls ≠ 0 → t0 = [.event m]) ∧ actions t1 = [] ∧
      (stepOp c (.process rx) w).2.out = (runActions c m w2).2.out ++ t1 := by
  obtain ⟨w2, hh, hx⟩ := active_parts_cycle (c := c) (rx := rx) ha
  rcases hx with ⟨h0, -⟩ | ⟨m', h1, h2, h3⟩
  · rw [hr] at h0; cases h0
  rw [hr] at h1
  simp only [Option.some.injEq] at h1
  subst h1
  have hps : (preProcess c rx w).2.ps = w.ps := pre_same c rx w .ps (by decide)
  have ht0 : ∃ t0, w2.out = w.out ++ t0 ∧ w2.ps = memAfter w.ps t0 ∧ actions t0 = [] ∧ (m.cls ≠ 0 → t0 = [.event m]) := by
    by_cases hc : m.cls = 0
    · cases hh with
      | handler m' hr' hm' hn' h =>
        rw [hr] at hr'
        simp only [Option.some.injEq] at hr'
        subst hr'
        have hs : Steps c False protoActs (notified c m (preProcess c rx w).2) w2 := by
          rw [h]
          exact Foot.handleProtocolClassType (fun h => absurd hm (by omega)) _
        obtain ⟨t, h1, h2, -⟩ := hs.trace (fun h => h) (user := []) (fun m h => by simp [protoActs, writeActs] at h)
        obtain ⟨t', h1', h2'⟩ := Steps.noAction hs (by decide)
        have : t' = t := List.append_cancel_left (h1'.symm.trans h1)
        subst this
        obtain ⟨t1, ht1, ho⟩ := notified_out c m (preProcess c rx w).2
        rw [pre_out] at ht1
        have hm1 : memAfter w.ps t1 = w.ps := by
          clear ht1
          induction t1 with
          | nil => rfl
          | cons o t1 ih =>
            obtain ⟨b, rfl⟩ := ho o (by simp)
            exact ih (fun o h => ho o (by simp [h]))
        refine ⟨t1 ++ t', by rw [h1, ht1, List.append_assoc], ?_, ?_, fun h => absurd hc h⟩
        · rw [memAfter_append, hm1, h2]
          rw [show (notified c m (preProcess c rx w).2).ps = w.ps from (notified_same c m _ .ps).trans hps]
        · rw [actions_append, h2', List.append_nil]
          refine actions_none fun o h a p m e => ?_
          obtain ⟨b, rfl⟩ := ho o h
          cases e
      | other _ hs =>
        obtain ⟨t, h1, h2⟩ := hs.outs
        rw [pre_out] at h1
        refine ⟨t, h1, ?_, ?_, fun h => absurd hc h⟩
        · rw [hs.same .ps (by decide), hps]
          clear h1
          induction t with
          | nil => rfl
          | cons o t ih =>
            obtain ⟨a, ha, he⟩ := h2 o (by simp)
            simp only [List.mem_cons, List.not_mem_nil, or_false] at ha
            rcases ha with rfl | rfl
            · obtain ⟨_, _, rfl⟩ := he
              exact ih (fun o h => h2 o (by simp [h]))
            · obtain ⟨_, rfl⟩ := he
              exact ih (fun o h => h2 o (by simp [h]))
        · obtain ⟨t', h1', h2'⟩ := Steps.noAction hs (by decide)
          rw [pre_out] at h1'
          rw [← h2']
          exact congrArg actions (List.append_cancel_left (h1.symm.trans h1'))
    · refine ⟨[.event m], ?_, ?_, rfl, fun _ => rfl⟩
      · rw [h2 hc, addOut, pre_out]
      · rw [h2 hc, addOut]; exact hps
  obtain ⟨t0, ho, hps0, ha0, he0⟩ := ht0
  have e : (afterEvent c m w2).2 = (Core.activeExtRead c (Core.activeHeartbeat c (runActions c m w2).2).2).2 := rfl
  obtain ⟨t1, h1, h1'⟩ := Steps.noAction (Foot.activeHeartbeat (c := c) (bad := True) (runActions c m w2).2) (by decide)
  obtain ⟨t2, h2, h2'⟩ := Steps.noAction (Foot.activeExtRead (c := c) (bad := True) (Core.activeHeartbeat c (runActions c m w2).2).2) (by decide)
  refine ⟨t0, w2, t1 ++ t2, ho, hps0, ha0, he0, ?_, ?_⟩
  · rw [actions_append, h1', h2']; rfl
  · show (Core.process c rx w).2.out = _
    rw [h3, e, h2, h1, List.append_assoc]

/-- C49: for every event an active node receives, the node first handles it (`t0`, without any action), then the rows of the matrix as it
is stored now are executed, each which fires once and in ascending order, then the rules of the next generation matrix (if
configured); nothing behind it executes an action. -/
theorem C49_cycle (c : Ctx) (rx : Option Msg) (m : Msg) (w : W) (hdm : c.dm = true) (hn : c.dmRows ≤ 255)
    (ha : w.v.st = .active) (hr : (readMessage c rx w).1 = some m) (hm : m.size.toNat ≤ 8) :
    ∃ t0 ng t1, (stepOp c (.process rx) w).2.out = w.out ++ (t0 ++ (calls (matrix c (memAfter w.ps t0)) m m.data.toList ++ ng) ++ t1) ∧
      actions t0 = [] ∧ actions t1 = [] ∧ (m.cls ≠ 0 → t0 = [.event m]) ∧ (c.dmNg = false → ng = []) ∧
      ∀ o ∈ ng, ∃ a p m', o = .action a p m' := by
  obtain ⟨t0, w2, t1, ho, hps0, ha0, he0, ha1, hout⟩ := action_cycle c rx m w ha hr hm
  have hra : (runActions c m w2).2 =
      (whenM c.dmNg (DmNg.executeActions c m) { w2 with out := w2.out ++ calls (matrix c w2.ps) m m.data.toList }).2 := by
    unfold runActions
    have : whenM (c.dm = true) (Dm.executeActions c.toCfg m) w2 =
        ((), { w2 with out := w2.out ++ calls (matrix c w2.ps) m m.data.toList }) := by
      rw [whenM_run, if_pos hdm, executeActions_run c.toCfg m w2 hdm hn]
    rw [bind_run, this]
  have hng : ∃ ng, (runActions c m w2).2.out = w2.out ++ (calls (matrix c w2.ps) m m.data.toList ++ ng) ∧ (c.dmNg = false → ng = []) ∧
      ∀ o ∈ ng, ∃ a p m', o = .action a p m' := by
    rw [hra]
    by_cases hd : c.dmNg = true
    · rw [whenM_run, if_pos hd]
      obtain ⟨t, h1, h2⟩ := ((Foot.ngExecuteActions (c := c) (bad := True) (m := m) (fun _ => trivial) (fun _ => trivial))
        { w2 with out := w2.out ++ calls (matrix c w2.ps) m m.data.toList }).outs
      refine ⟨t, by rw [h1, List.append_assoc], fun h => (by rw [hd] at h; cases h), fun o ho => ?_⟩
      obtain ⟨a, ha, he⟩ := h2 o ho
      simp only [List.mem_cons, List.not_mem_nil, or_false] at ha
      rcases ha with rfl | rfl | rfl
      · exact he.elim
      · exact he
      · exact he.elim
    · rw [whenM_run, if_neg hd]
      exact ⟨[], by simp, fun _ => rfl, by simp⟩
  obtain ⟨ng, hng1, hng2, hng3⟩ := hng
  refine ⟨t0, ng, t1, ?_, ha0, ha1, he0, hng2, hng3⟩
  rw [hout, hng1, ho, hps0]
  simp only [List.append_assoc]

/-- C49: without a received event, and in every other state than active, no action is executed; neither by any other call. -/
theorem C49_only (c : Ctx) (op : Op) (w : W)
    (h : ∀ rx, op = .process rx → w.v.st ≠ .active ∨ (readMessage c rx w).1 = none) :
    ∃ t, (stepOp c op w).2.out = w.out ++ t ∧ actions t = [] := by
  by_cases hp : ∀ rx, op ≠ .process rx
  · exact Steps.noAction (op_steps c op hp w) (by cases op <;> simp [opActs])
  · have : ∃ rx, op = .process rx := by
      cases op with
      | process rx => exact ⟨rx, rfl⟩
      | _ => exact absurd (fun _ h => by cases h) hp
    obtain ⟨rx, rfl⟩ := this
    show ∃ t, (Core.process c rx w).2.out = w.out ++ t ∧ _
    by_cases ha : w.v.st = .active
    · have hr := (h rx rfl).resolve_left (fun h => h ha)
      obtain ⟨w2, hh, hx⟩ := active_parts_cycle (c := c) (rx := rx) ha
      rcases hx with ⟨-, he⟩ | ⟨m', h1, -, -⟩
      · have h0 : ∃ t, w2.out = w.out ++ t ∧ actions t = [] := by
          cases hh with
          | handler m' hr' => rw [hr] at hr'; cases hr'
          | other _ hs =>
            obtain ⟨t, h1, h2⟩ := Steps.noAction hs (by decide)
            exact ⟨t, by rw [h1, pre_out], h2⟩
        obtain ⟨t0, h0, h0'⟩ := h0
        obtain ⟨t1, h1, h1'⟩ := Steps.noAction (Foot.activeHeartbeat (c := c) (bad := True) w2) (by decide)
        obtain ⟨t2, h2, h2'⟩ := Steps.noAction (Foot.activeExtRead (c := c) (bad := True) (Core.activeHeartbeat c w2).2) (by decide)
        refine ⟨t0 ++ (t1 ++ t2), ?_, ?_⟩
        · rw [he, h2, h1, h0]; simp only [List.append_assoc]
        · rw [actions_append, actions_append, h0', h1', h2']; rfl
      · rw [hr] at h1; cases h1
    · obtain ⟨t, h1, h2⟩ := Steps.noAction (inactive_cycle (c := c) (rx := rx) ha) (by decide)
      exact ⟨t, by rw [h1, pre_out], h2⟩

/-! ### Concrete cases -/

/-- One row: zone 0 of the node, action 1. -/
def zoneMem : Nat → U8 := fun a =>
  if a = Ps.addrDm Ex.ctx + 1 then 0x90 else if a = Ps.addrDm Ex.ctx + 6 then 1 else mem 0x60 a

/-- A temperature event with a too short payload; `stale` is in the array behind the payload. -/
def shortEvent (stale : U8) : Msg := { Ex.msg 20 3 9 [0] with data := bytes8 [0, stale] }

/-- C48 is violated: two events which are the same as far as they are on the bus, too short for a zone.  One of them executes an action, depending on
what is behind the payload. -/
theorem C48_violated : payload (shortEvent 0) = payload (shortEvent 7) ∧ payload (shortEvent 0) = [0] ∧
    (∀ z, ¬ ZoneByte (shortEvent 0) (payload (shortEvent 0)) 0 z) ∧
    (∃ o ∈ (node Ex.ctx allOk zoneMem [.process none, .process (some (shortEvent 0))]).out, o = .action 1 0 (shortEvent 0)) ∧
    actions (node Ex.ctx allOk zoneMem [.process none, .process (some (shortEvent 7))]).out = [] := by
  refine ⟨by decide, by decide, ?_, ⟨_, by decide +kernel, rfl⟩, by decide +kernel⟩
  rintro z (⟨h, -⟩ | ⟨-, h⟩)
  · simp [ZoneInByte0, shortEvent, Ex.msg] at h
  · have : (payload (shortEvent 0))[0 + 1]? = none := by decide
    rw [this] at h
    cases h

/-- Row 1 of `Ex.ctx`: origin 9, class 10 (9 bits compared), type 6 out of 4 - 7; row 3: sub-zone 0, class 20. -/
def rowsMem : Nat → U8 := fun a =>
  if Ps.addrDm Ex.ctx + 8 ≤ a ∧ a < Ps.addrDm Ex.ctx + 16 then [9, 0xC2, 0xFF, 10, 0xFC, 4, 5, 1].getD (a - (Ps.addrDm Ex.ctx + 8)) 0
  else if Ps.addrDm Ex.ctx + 24 ≤ a ∧ a < Ps.addrDm Ex.ctx + 32 then [0, 0x8A, 0xFF, 20, 0, 0, 6, 2].getD (a - (Ps.addrDm Ex.ctx + 24)) 0
  else if Ps.addrDm Ex.ctx + 32 ≤ a ∧ a < Ps.addrDm Ex.ctx + 40 then [0, 0x80, 0, 0, 0, 0, 7, 3].getD (a - (Ps.addrDm Ex.ctx + 32)) 0
  else mem 0x60 a

-- The first of the rows fires for an event of class 10, type 6, origin 9; the event carries everything that is asked for.
example : Fires false 0 0 ((matrix Ex.ctx rowsMem).row 1) (fun _ => 0) (Ex.msg 10 6 9 [1, 2]) (payload (Ex.msg 10 6 9 [1, 2])) ∧
    Complete ((matrix Ex.ctx rowsMem).row 1) (Ex.msg 10 6 9 [1, 2]) := by
  refine ⟨⟨by decide, by decide, by decide, by decide, fun h => absurd h (by decide), fun h => absurd h (by decide), .inr (by decide),
    .inr (by decide), fun h => absurd h.1 (by decide), fun h => absurd h.1 (by decide), fun h => absurd h.1 (by decide),
    fun h => absurd h.1 (by decide)⟩, ⟨fun h => absurd h (by decide), fun h => absurd h (by decide), fun h => absurd h (by decide),
    fun h => absurd h (by decide)⟩⟩

-- The second one fires for class 20 with sub-zone 0 or 255 in the third byte.
example : ∀ z ∈ [(0 : U8), 255], Fires false 0 0 ((matrix Ex.ctx rowsMem).row 3) (fun _ => 0) (Ex.msg 20 6 9 [1, 2, z]) (payload (Ex.msg 20 6 9 [1, 2, z])) := by
  have key : ∀ z : U8, z = 0 ∨ z = 255 → Fires false 0 0 ((matrix Ex.ctx rowsMem).row 3) (fun _ => 0) (Ex.msg 20 6 9 [1, 2, z])
      (payload (Ex.msg 20 6 9 [1, 2, z])) := by
    intro z hz
    have ht : (Ex.msg 20 6 9 [1, 2, z]).typ = 6 := rfl
    have hc : (Ex.msg 20 6 9 [1, 2, z]).cls = 20 := rfl
    refine ⟨by decide, by decide, fun h => absurd h (by decide), fun h => absurd h (by decide), fun h => absurd h (by decide), fun _ => ⟨z, .inr ⟨?_, ?_⟩, ?_⟩, .inr ?_,
      .inr (by rw [ht]; decide), fun h => absurd h.1 (by decide), fun h => absurd h.1 (by decide), fun h => absurd h.1 (by decide), fun h => absurd h.1 (by decide)⟩
    · simp [ZoneInByte1, zoneClasses, Ex.msg]
    · rfl
    · rcases hz with rfl | rfl <;> decide
    · rw [hc]; decide
  intro z hz
  exact key z (by simpa using hz)

-- Two events in an active node: the first executes rows 1 and 4, the second (sub-zone 1) only row 4.
example : actions (node Ex.ctx allOk rowsMem [.process none, .process (some (Ex.msg 10 6 9 [1, 2])),
      .process (some (Ex.msg 20 6 9 [1, 2, 1]))]).out =
    [.action 5 1 (Ex.msg 10 6 9 [1, 2]), .action 7 3 (Ex.msg 10 6 9 [1, 2]), .action 7 3 (Ex.msg 20 6 9 [1, 2, 1])] := by
  decide +kernel

-- The hypotheses of `C49_cycle` and of `C49_only` in that history.
example : let w := node Ex.ctx allOk rowsMem [.process none]
    w.v.st = .active ∧ (readMessage Ex.ctx (some (Ex.msg 10 6 9 [1, 2])) w).1 = some (Ex.msg 10 6 9 [1, 2]) ∧
    (readMessage Ex.ctx none w).1 = none ∧ (node Ex.ctx allOk rowsMem []).v.st ≠ .active := by
  decide +kernel

end Vscp.DmProps
