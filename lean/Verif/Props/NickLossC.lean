/-
Property theorems: the nickname and the CRC of the segment after a loss of power in the middle of a call, if the application calls the framework in its callbacks (C115).
-/
import Verif.Props.NickLoss
import Verif.Props.Callout
import Verif.Props.SpeechC
import Verif.Lemmas.CalloutWalk

namespace Vscp.NickLoss
open M Vscp.Spec Vscp.Safety Vscp.Wear Vscp.RestartProps Vscp.Callout Transport

/-- The application neither starts the initialisation of the node nor restores the factory settings in a callback. -/
def Keeps (cb : Callbacks) : Prop := ∀ w op, op ∈ cb w → op ≠ .startNodeSegmentInit ∧ op ≠ .restore

variable {c : Ctx} {cb : Callbacks} {L : Nat} {free : Act → Bool}

theorem Does.nil (w : W) : Does (None L) w w := ⟨[], by simp, None.nil⟩
theorem Does.none_trans {w w' w'' : W} (h : Does (None L) w w') (h' : Does (None L) w' w'') : Does (None L) w w'' := by
  obtain ⟨t, h1, h2⟩ := h
  obtain ⟨t', h1', h2'⟩ := h'
  exact ⟨t ++ t', by rw [h1', h1, List.append_assoc], by rw [storedIn_append]; exact h2.append h2'⟩

theorem Does.behind {w w' w'' : W} (h : Does (Last L) w w') (h' : Does (None L) w' w'') : Does (Last L) w w'' := by
  obtain ⟨t, h1, h2⟩ := h
  obtain ⟨t', h1', h2'⟩ := h'
  exact ⟨t ++ t', by rw [h1', h1, List.append_assoc], by rw [storedIn_append]; exact h2.behind h2'⟩

theorem Does.before {w w' w'' : W} (h : Does (None L) w w') (h' : Does (Last L) w' w'') : Does (Last L) w w'' := by
  obtain ⟨t, h1, h2⟩ := h
  obtain ⟨t', h1', h2'⟩ := h'
  exact ⟨t ++ t', by rw [h1', h1, List.append_assoc], by rw [storedIn_append]; exact h2.blank.before h2'⟩

theorem Does.last {w w' : W} (h : Does (None L) w w') : Does (Last L) w w' := by
  obtain ⟨t, h1, h2⟩ := h
  exact ⟨t, h1, h2.blank.last⟩

theorem ops_none (hp : Place c L free) (hf : ∀ a, a ≠ .nick → a ≠ .seg → a ≠ .restore → free a = true) : ∀ (ops : List Op),
    (∀ op ∈ ops, op.inCallback ∧ op ≠ .startNodeSegmentInit ∧ op ≠ .restore) → ∀ w, Does (None L) w (runOps c ops w)
  | [], _, w => .nil w
  | op :: ops, h, w => by
    obtain ⟨h1, h2, h3⟩ := h op (by simp)
    refine .none_trans (w' := (stepOp c op w).2) ?_ (ops_none hp hf ops (fun o ho => h o (by simp [ho])) _)
    refine steps_none hp (op_steps c op (fun rx e => by rw [e] at h1; exact h1) w) (List.all_eq_true.mpr fun a ha => hf a ?_ ?_ ?_) <;>
      (rintro rfl; cases op <;> first | exact absurd rfl h2 | exact absurd rfl h3 | exact h1 | (revert ha; simp [opActs]))

theorem walk_none (hp : Place c L free) (hf : ∀ a, a ≠ .nick → a ≠ .seg → a ≠ .restore → free a = true) (hcb : CbOk cb) (hk : Keeps cb) :
    Walk c cb (Does (None L)) where
  refl := .nil
  trans := .none_trans
  own h := steps_none hp h (List.all_eq_true.mpr fun a ha => hf a (by rintro rfl; revert ha; decide) (by rintro rfl; revert ha; decide) (by rintro rfl; revert ha; decide))
  call w := ops_none hp hf (cb w) (fun op h => ⟨hcb w op h, hk w op h⟩) w

theorem emit_none (o : Out) (w : W) (h : ∀ a b, o ≠ .psW a b) : Does (None L) w (emit o w).2 :=
  ⟨[o], rfl, fun b hb => h L b (List.mem_singleton.mp (mem_storedIn.mp hb)).symm⟩

theorem opC_last (hp : Place c L free) (hf : ∀ a, a ≠ .nick → a ≠ .seg → a ≠ .restore → free a = true)
    (hh : ∀ m, Doing (Last L) (Core.handleProtocolClassType c m)) (hcb : CbOk cb) (hk : Keeps cb) (op : Op) (w : W) :
    Last L (stored w (stepOpC c cb op w).2) := by
  cases op with
  | process rx =>
    by_cases ha : w.v.st = .active
    · suffices h : Does (Last L) w (Core.processC c cb rx w).2 by
        obtain ⟨t, h1, h2⟩ := h
        rw [show (stepOpC c cb (.process rx) w).2 = (Core.processC c cb rx w).2 from rfl, stored_of h1]
        exact h2
      have hw := walk_none hp hf hcb hk
      have hpre : Does (None L) w (preProcess c rx w).2 := ⟨[], by rw [pre_out]; simp, None.nil⟩
      rcases active_walk hw (rx := rx) ha with ⟨m, w1, -, -, -, h2, h3⟩ | ⟨-, m, h⟩ | h
      · refine .before (w' := w1) ?_ ((hh m w1).behind h3)
        rcases h2 with rfl | rfl
        · exact hpre
        · exact hpre.none_trans (.none_trans (emit_none _ _ (fun _ _ h => (by cases h))) (hw.call _))
      · exact (hpre.none_trans (.none_trans (emit_none _ _ (fun _ _ h => (by cases h))) h)).last
      · exact (hpre.none_trans h).last
    · rw [show (stepOpC c cb (.process rx) w).2 = (stepOp c (.process rx) w).2 from Speech.inactive_processC ha]
      exact op_last hp hf hh _ _
  | _ => exact op_last hp hf hh _ _

/-- The memory after a call is what was written to it. -/
theorem opC_mem (op : Op) (w : W) : (stepOpC c cb op w).2.ps = applyWrites w.ps (stored w (stepOpC c cb op w).2) := by
  have step : ∀ op w, ∃ t, (stepOp c op w).2.out = w.out ++ t ∧ (stepOp c op w).2.ps = memAfter w.ps t := by
    intro op w
    obtain ⟨t, ht⟩ := Speech.op_grows c op w
    refine ⟨t, ht, ?_⟩
    rw [op_mem, SegmentLoss.memAfter_stored, stored_of ht]
  cases op with
  | process rx =>
    by_cases ha : w.v.st = .active
    · have hw : Walk c cb (fun w w' => ∃ t, w'.out = w.out ++ t ∧ w'.ps = memAfter w.ps t) := by
        have tr : ∀ {w w' w'' : W}, (∃ t, w'.out = w.out ++ t ∧ w'.ps = memAfter w.ps t) → (∃ t, w''.out = w'.out ++ t ∧ w''.ps = memAfter w'.ps t) →
            ∃ t, w''.out = w.out ++ t ∧ w''.ps = memAfter w.ps t := by
          rintro w w' w'' ⟨t, h1, h2⟩ ⟨t', h1', h2'⟩
          exact ⟨t ++ t', by rw [h1', h1, List.append_assoc], by rw [h2', h2, memAfter_append]⟩
        refine ⟨fun w => ⟨[], by simp, rfl⟩, tr, fun h => h.rel (R := fun w w' => ∃ t, w'.out = w.out ++ t ∧ w'.ps = memAfter w.ps t) (fun w => ⟨[], by simp, rfl⟩) (fun _ _ _ => tr) fun a _ w w' hst => Sett.step_mem hst, fun w => ?_⟩
        show ∃ t, (runOps c (cb w) w).out = w.out ++ t ∧ (runOps c (cb w) w).ps = memAfter w.ps t
        generalize cb w = ops
        induction ops generalizing w with
        | nil => exact ⟨[], by simp [runOps], rfl⟩
        | cons op ops ih => exact tr (step op w) (ih _)
      have hpre : ∃ t, (preProcess c rx w).2.out = w.out ++ t ∧ (preProcess c rx w).2.ps = memAfter w.ps t :=
        ⟨[], by rw [pre_out]; simp, pre_same c rx w .ps (by decide)⟩
      have hem : ∀ (o : Out) (w : W), (∀ a b, o ≠ .psW a b) → ∃ t, (emit o w).2.out = w.out ++ t ∧ (emit o w).2.ps = memAfter w.ps t := by
        intro o w h
        refine ⟨[o], rfl, ?_⟩
        cases o <;> first | exact absurd rfl (h _ _) | rfl
      have hhd : ∀ m w, ∃ t, (Core.handleProtocolClassType c m w).2.out = w.out ++ t ∧ (Core.handleProtocolClassType c m w).2.ps = memAfter w.ps t := fun m w =>
        (handler_foot (c := c) (m := m) w).rel (R := fun w w' => ∃ t, w'.out = w.out ++ t ∧ w'.ps = memAfter w.ps t) (fun w => ⟨[], by simp, rfl⟩) (fun _ _ _ => hw.trans)
          fun a _ w w' hst => Sett.step_mem hst
      have key : ∃ t, (Core.processC c cb rx w).2.out = w.out ++ t ∧ (Core.processC c cb rx w).2.ps = memAfter w.ps t := by
        rcases active_walk hw (rx := rx) ha with ⟨m, w1, -, -, -, h2, h3⟩ | ⟨-, m, h⟩ | h
        · refine hw.trans (w' := w1) ?_ (hw.trans (hhd m w1) h3)
          rcases h2 with rfl | rfl
          · exact hpre
          · exact hw.trans hpre (hw.trans (hem _ _ (fun _ _ h => (by cases h))) (hw.call _))
        · exact hw.trans hpre (hw.trans (hem _ _ (fun _ _ h => (by cases h))) h)
        · exact hw.trans hpre h
      obtain ⟨t, h1, h2⟩ := key
      show (Core.processC c cb rx w).2.ps = applyWrites w.ps (stored w (Core.processC c cb rx w).2)
      rw [h2, SegmentLoss.memAfter_stored, stored_of h1]
    · rw [show (stepOpC c cb (.process rx) w).2 = (stepOp c (.process rx) w).2 from Speech.inactive_processC ha]
      exact op_mem c _ w
  | _ => exact op_mem c _ w

theorem opC_loss (hp : Place c L free) (hf : ∀ a, a ≠ .nick → a ≠ .seg → a ≠ .restore → free a = true)
    (hh : ∀ m, Doing (Last L) (Core.handleProtocolClassType c m)) (hcb : CbOk cb) (hk : Keeps cb) (op : Op) (w : W) (k : Nat) :
    let w' := (stepOpC c cb op w).2
    let n := lossMem w w' k L
    n = w.ps L ∨ n = w'.ps L ∨ n = 0xFF := by
  intro w' n
  obtain ⟨j, e⟩ := SegmentLoss.lossMem_stored w w' k
  have h := (opC_last hp hf hh hcb hk op w).take w.ps j
  rw [← opC_mem, ← e] at h
  rcases h with h | h | h
  · exact .inl h
  · exact .inr (.inr h)
  · exact .inr (.inl h)

/-- C115: the same with an application which calls the framework in its callbacks, as long as it neither starts the initialisation of the node nor restores
the factory settings there: whenever the power is lost in a call, the nickname and the CRC of the segment in the memory are those from before the call, those from after it, or 0xFF. -/
theorem C115_callbacks (hcb : CbOk cb) (hk : Keeps cb) (op : Op) (w : W) (k : Nat) :
    let w' := (stepOpC c cb op w).2
    let n := lossMem w w' k (Ps.addrNickname c)
    let x := lossMem w w' k (Ps.addrSegCrc c)
    (n = w.ps (Ps.addrNickname c) ∨ n = w'.ps (Ps.addrNickname c) ∨ n = 0xFF) ∧ (x = w.ps (Ps.addrSegCrc c) ∨ x = w'.ps (Ps.addrSegCrc c) ∨ x = 0xFF) :=
  ⟨opC_loss (nickPlace c) (by intro a; cases a <;> simp [Act.noNick]) (handler_nick c) hcb hk op w k,
    opC_loss (segPlace c) (by intro a; cases a <;> simp [Act.noSeg]) (handler_seg c) hcb hk op w k⟩

/-- Switched on, a node has the nickname of the memory or none. -/
theorem init_nick {c : Ctx} (h : GoodCfg c) (ok : Tmr → Bool) (ps : Nat → U8) :
    let r := node c ok ps []
    r.v.nick = ps (Ps.addrNickname c) ∨ r.v.nick = 0xFF := by
  intro r
  obtain ⟨t, h1, h2⟩ := steps_blank (nickPlace c) (op_steps c (.init ok) (fun _ => Op.noConfusion) (powerUp ps)) rfl
  have e1 : r.v.nick = r.ps (Ps.addrNickname c) := C34_nickname_stored h ok _ [] (by simp)
  have e2 : r.ps = applyWrites ps (storedIn t) := by
    have := op_mem c (.init ok) (powerUp ps)
    rw [stored_of h1] at this
    exact this
  rw [e1, e2]
  exact h2.value _

/-- C115: so such a node which loses its power, at any point of its history, also in a callback, and is switched on has the nickname it had, or that it was
just given, or none. -/
theorem C115_callbacks_restart {c : Ctx} (h : GoodCfg c) {cb : Callbacks} (hcb : CbOk cb) (hk : Keeps cb) (ok ok' : Tmr → Bool) (ps : Nat → U8) (ops : List Op)
    (hops : ∀ op ∈ ops, op.Ok) (op : Op) (hop : op.Ok) (k : Nat) :
    let w := nodeC c cb ok ps ops
    let w' := nodeC c cb ok ps (ops ++ [op])
    let r := node c ok' (lossMem w w' k) []
    r.v.nick = w.v.nick ∨ r.v.nick = w'.v.nick ∨ r.v.nick = 0xFF := by
  intro w w' r
  have e : w' = (stepOpC c cb op w).2 := by
    have : ∀ (l l' : List Op) (w : W), runOpsC c cb (l ++ l') w = runOpsC c cb l' (runOpsC c cb l w) := by
      intro l
      induction l with
      | nil => exact fun _ _ => rfl
      | cons o l ih => exact fun _ _ => ih _ _
    show runOpsC c cb (.init ok :: (ops ++ [op])) _ = _
    rw [← List.cons_append, this]
    rfl
  have s1 := C84_nickname_stored h hcb ok ps ops hops
  have s2 := C84_nickname_stored h hcb ok ps (ops ++ [op]) (fun o ho => (List.mem_append.mp ho).elim (hops o) fun h => by rw [List.mem_singleton.mp h]; exact hop)
  have := (C115_callbacks (c := c) hcb hk op w k).1
  rw [← e] at this
  rcases init_nick h ok' (lossMem w w' k) with hr | hr
  · have s1' : w.v.nick = w.ps (Ps.addrNickname c) := s1
    have s2' : w'.v.nick = w'.ps (Ps.addrNickname c) := s2
    show (node c ok' (lossMem w w' k) []).v.nick = w.v.nick ∨ _ = w'.v.nick ∨ _ = 0xFF
    rw [hr, s1', s2']
    exact this
  · exact .inr (.inr hr)

/-! ### Concrete cases -/

-- A new nickname, with an application which sends an event in each callback.
example : let cb : Callbacks := fun _ => [.sendEvent (Ex.msg 20 3 0 [0])]
    let w := nodeC Ex.ctx cb allOk (mem 0x60) [.process none]
    CbOk cb ∧ Keeps cb ∧ w.v.nick = 5 ∧ (Op.process (some (Ex.msg 0 6 0 [5, 9]))).Ok ∧
    ((List.range 5).map fun k => lossMem w (stepOpC Ex.ctx cb (.process (some (Ex.msg 0 6 0 [5, 9]))) w).2 k (Ps.addrNickname Ex.ctx)) = [5, 9, 9, 9, 9] := by
  refine ⟨fun w op h => ?_, fun w op h => ?_, by decide +kernel, by simp [Op.Ok]; decide, by decide +kernel⟩
  · rw [List.mem_singleton.mp h]; exact trivial
  · rw [List.mem_singleton.mp h]; exact ⟨fun h => (by cases h), fun h => (by cases h)⟩

end Vscp.NickLoss
