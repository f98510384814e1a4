/-
The application of the AVR example: registers (C87), actions (C88), status LED (C89), reboot (C90).
-/
import Verif.Lemmas.DmC
import Verif.Model.AvrApp
import Verif.Spec.AvrApp
import Verif.Props.Lamp
import Verif.Props.Registers

namespace Vscp.AvrProps
open M Spec Spec.Dm Spec.Avr Transport Safety Callout DmProps Registers Vscp.Avr

theorem good (sz : Nat) (e : Env) : GoodCfg (ctx sz e) :=
  ⟨fun h => (by cases h), fun _ => (by decide : (2 : Nat) ≤ 255), fun h => (by cases h)⟩

theorem cb_ok (st : Nat → Vector U8 8) : CbOk (cb st) := by
  intro w op h
  unfold cb at h
  split at h
  · split at h
    · rw [List.mem_singleton.mp h]; trivial
    · split at h
      · rw [List.mem_singleton.mp h]; trivial
      · cases h
  · cases h

/-! ### C87 -/

theorem regAfter_append (a z : U8) (t t' : List Out) : regAfter a z (t ++ t') = regAfter a (regAfter a z t) t' := by
  induction t generalizing z with
  | nil => rfl
  | cons o t ih => cases o <;> exact ih _

theorem regAfter_other {t : List Out} (h : ∀ o ∈ t, o ≠ .appRestore ∧ ∀ p a v r, o ≠ .appWrite p a v r) (a z : U8) :
    regAfter a z t = z := by
  induction t with
  | nil => rfl
  | cons o t ih =>
    have h' := ih fun o ho => h o (by simp [ho])
    cases o with
    | appRestore => exact absurd rfl (h _ (by simp)).1
    | appWrite p b v r => exact absurd rfl ((h _ (by simp)).2 p b v r)
    | _ => exact h'

/-- Zone and sub-zone stored in the memory are the ones of the trace. -/
def Zones (w w' : W) : Prop := ∃ t, w'.out = w.out ++ t ∧ w'.ps 8 = regAfter 0 (w.ps 8) t ∧ w'.ps 9 = regAfter 1 (w.ps 9) t

theorem Zones.refl (w : W) : Zones w w := ⟨[], by simp, rfl, rfl⟩

theorem Zones.trans {w w' w'' : W} (h : Zones w w') (h' : Zones w' w'') : Zones w w'' := by
  obtain ⟨t, h1, h2, h3⟩ := h
  obtain ⟨t', h1', h2', h3'⟩ := h'
  refine ⟨t ++ t', by rw [h1', h1, List.append_assoc], ?_, ?_⟩
  · rw [h2', h2, regAfter_append]
  · rw [h3', h3, regAfter_append]

theorem zones_put {a : Nat} {b : U8} {w w' : W} (h : w'.ps = (putPs a b w).ps) (ho : w'.out = w.out ++ [.psW a b]) (h8 : a ≠ 8) (h9 : a ≠ 9) :
    Zones w w' := by
  refine ⟨[.psW a b], ho, ?_, ?_⟩
  · rw [h]; exact if_neg (fun e => h8 e.symm)
  · rw [h]; exact if_neg (fun e => h9 e.symm)

theorem zones_step {sz : Nat} {e : Env} {bad : Prop} {a : Act} {w w' : W} (hs : Step (ctx sz e) bad a w w') : Zones w w' := by
  by_cases ht : a.touches .ps = true
  · cases a with
    | nick =>
      obtain ⟨n, rfl⟩ := hs
      exact zones_put (a := 0) rfl rfl (by decide) (by decide)
    | seg =>
      obtain ⟨n, rfl⟩ := hs
      exact zones_put (a := 1) rfl rfl (by decide) (by decide)
    | flags =>
      obtain ⟨n, rfl⟩ := hs
      exact zones_put (a := 2) rfl rfl (by decide) (by decide)
    | user =>
      obtain ⟨i, b, hi, rfl⟩ := hs
      exact zones_put (a := 3 + i) rfl rfl (by omega) (by omega)
    | boot => exact absurd hs.1 (fun h => (by cases h))
    | restore =>
      simp only [Step] at hs
      rw [restore_run] at hs
      subst hs
      refine ⟨_, rfl, ?_, ?_⟩
      all_goals
        rw [regAfter_append]
        rfl
    | dmW =>
      obtain ⟨-, i, b, hi, rfl⟩ := hs
      exact zones_put (a := 10 + i) rfl rfl (by omega) (by omega)
    | ngW =>
      obtain ⟨-, i, b, hi, rfl⟩ := hs
      exact absurd hi (Nat.not_lt_zero i)
    | appWrite =>
      obtain ⟨-, p, a, v, rfl⟩ := hs
      rw [appWriteRegister_run]
      have hreg : ∀ (x z : U8) (l : List (Nat × U8)) (r : U8),
          regAfter x z ([.appWrite p a v r] ++ traceOf l) = if p = 0 ∧ a = x then v else z := by
        intro x z l r
        rw [regAfter_append, regAfter_other]
        · rfl
        · intro o ho
          obtain ⟨y, -, rfl⟩ := List.mem_map.mp ho
          exact ⟨fun h => (by cases h), fun _ _ _ _ h => (by cases h)⟩
      have hst : ∀ n, Core.appStores (ctx sz e) n p a v = if p = 0 ∧ a = 0 then [(8, v)] else if p = 0 ∧ a = 1 then [(9, v)] else [] := by
        intro n
        show (match writeZone p a v with | some z => [(8, z)] | none => []) ++ (match writeSubZone p a v with | some z => [(9, z)] | none => []) = _
        unfold writeZone writeSubZone
        by_cases h0 : p = 0 ∧ a = 0
        · obtain ⟨rfl, rfl⟩ := h0; rfl
        · by_cases h1 : p = 0 ∧ a = 1
          · obtain ⟨rfl, rfl⟩ := h1; rfl
          · rw [if_neg h0, if_neg h1, if_neg (fun h => h0 ⟨h.1, h.2.2⟩), if_neg (fun h => h1 ⟨h.1, h.2.2⟩)]; rfl
      refine ⟨_, List.append_assoc .., ?_, ?_⟩
      all_goals
        rw [hreg, hst]
        by_cases h0 : p = 0 ∧ a = 0
        · obtain ⟨rfl, rfl⟩ := h0; rfl
        · by_cases h1 : p = 0 ∧ a = 1
          · obtain ⟨rfl, rfl⟩ := h1; rfl
          · rw [if_neg h0, if_neg h1]
            first | rw [if_neg h0]; rfl | rw [if_neg h1]; rfl
    | _ => cases ht
  · have hps : w'.ps = w.ps := hs.same .ps (by simpa using ht)
    obtain ⟨t, h1, h2⟩ := hs.outs
    have hn : ∀ o ∈ t, o ≠ .appRestore ∧ ∀ p a v r, o ≠ .appWrite p a v r := by
      intro o ho
      have he := h2 o ho
      constructor
      · rintro rfl
        cases a <;> first | exact ht rfl | simp [Act.emits] at he
      · rintro p x v r rfl
        cases a <;> first | exact ht rfl | simp [Act.emits] at he
    exact ⟨t, h1, by rw [hps, regAfter_other hn], by rw [hps, regAfter_other hn]⟩

/-- The memory, as the trace says. -/
theorem zones_op {sz : Nat} {e : Env} (st : Nat → Vector U8 8) {op : Op} (hop : op.Ok) (w : W) :
    Zones w (stepOpC (ctx sz e) (cb st) op w).2 := by
  obtain ⟨L, -, hs⟩ := stepOpC_steps (c := ctx sz e) (cb_ok st) hop (w := w) (fun h => (by cases h))
  exact hs.rel (R := Zones) .refl (fun _ _ _ => .trans) fun _ _ _ _ h => zones_step h

theorem zones_init {sz : Nat} {e : Env} (st : Nat → Vector U8 8) (ok : Tmr → Bool) (w : W) :
    Zones w (stepOpC (ctx sz e) (cb st) (.init ok) w).2 := by
  obtain ⟨w1, hi, hs⟩ := init_steps (ctx sz e) ok w
  refine .trans (w' := w1) ⟨[.lamp .blinkSlow], hi.out, by rw [hi.ps]; rfl, by rw [hi.ps]; rfl⟩ ?_
  exact hs.rel (R := Zones) .refl (fun _ _ _ => .trans) fun _ _ _ _ h => zones_step h

/-- Received events have at most 8 data bytes (which the CAN adapter ensures, see C67). -/
def MoveOk : Move → Prop
  | .pass i => ∀ m, i.rx = some m → m.size.toNat ≤ 8
  | .power => True

/-- The calls the main loop makes. -/
def Called (op : Op) : Prop := op = .startNodeSegmentInit ∨ op = .tick 250 ∨ ∃ rx, op = .process rx

/-- What holds at the start and is kept by every call of the main loop and every reboot holds always. -/
theorem run_keeps {s : Surr} {P : Fw → Prop} (hcall : ∀ op f, op.Ok → Called op → P f → P (call s op f))
    (hreboot : ∀ f, P f → P (reboot s f)) (hlast : ∀ f b, P f → P { f with last := b }) (hled : ∀ f x, P f → P { f with led := x })
    (l : List Move) (hl : ∀ m ∈ l, MoveOk m) (f : Fw) (hf : P f) : P (run s l f) := by
  induction l generalizing f with
  | nil => exact hf
  | cons m l ih =>
    refine ih (fun x hx => hl x (by simp [hx])) _ ?_
    cases m with
    | power => exact hreboot f hf
    | pass i =>
      have h1 : P (call s (.process i.rx) f) := by
        refine hcall _ _ ?_ (.inr (.inr ⟨_, rfl⟩)) hf
        have := hl (.pass i) (by simp)
        cases hi : i.rx with
        | none => trivial
        | some m => exact this m hi
      show P (pass s i f)
      unfold pass
      dsimp only
      split
      · exact hreboot _ h1
      · have h2 : P (button s i (call s (.process i.rx) f)) := by
          unfold button
          refine hlast _ _ ?_
          split
          · exact hcall _ _ trivial (.inl rfl) h1
          · exact h1
        unfold periodic
        split
        · exact hled _ _ (hcall _ _ trivial (.inr (.inl rfl)) h2)
        · exact h2

/-- What holds at the start and is kept by every call of the framework and every reboot holds always. -/
theorem run_inv {s : Surr} {P : Fw → Prop} (hcall : ∀ op f, op.Ok → (∀ ok, op ≠ .init ok) → P f → P (call s op f))
    (hreboot : ∀ f, P f → P (reboot s f)) (hlast : ∀ f b, P f → P { f with last := b }) (hled : ∀ f x, P f → P { f with led := x })
    (l : List Move) (hl : ∀ m ∈ l, MoveOk m) (f : Fw) (hf : P f) : P (run s l f) :=
  run_keeps (fun op f h1 h2 => hcall op f h1 fun ok e => by subst e; rcases h2 with h | h | ⟨_, h⟩ <;> cases h) hreboot hlast hled l hl f hf

/-- The firmware after a history, from the first start on. -/
def fw (s : Surr) (ps : Nat → U8) (l : List Move) : Fw := run s l (boot s [] 0 ps)

/-- In each run the framework is a node as in the other properties. -/
theorem fw_node (s : Surr) (ps : Nat → U8) (l : List Move) (hl : ∀ m ∈ l, MoveOk m) :
    ∃ ps' ops, (∀ op ∈ ops, op.Ok) ∧
      (fw s ps l).w = nodeC (s.ctx (fw s ps l).life) (s.cb (fw s ps l).life) allOk ps' ops := by
  have hb : ∀ past n ps, ∃ ps' ops, (∀ op ∈ ops, op.Ok) ∧ (boot s past n ps).w = nodeC (s.ctx n) (s.cb n) allOk ps' ops :=
    fun past n ps => ⟨ps, [], by simp, rfl⟩
  have happ : ∀ c cb l op w, runOpsC c cb (l ++ [op]) w = (stepOpC c cb op (runOpsC c cb l w)).2 := by
    intro c cb l op
    induction l with
    | nil => intro w; rfl
    | cons o l ih => intro w; exact ih _
  refine run_inv (s := s) (P := fun f => ∃ ps', ∃ ops : List Op, (∀ op ∈ ops, op.Ok) ∧ f.w = nodeC (s.ctx f.life) (s.cb f.life) allOk ps' ops)
    ?_ ?_ (fun _ _ h => h) (fun _ _ h => h) l hl _ (hb _ _ _)
  · rintro op f hop - ⟨ps', ops, h1, h2⟩
    refine ⟨ps', ops ++ [op], ?_, ?_⟩
    · intro o ho
      rcases List.mem_append.mp ho with ho | ho
      · exact h1 o ho
      · rw [List.mem_singleton.mp ho]; exact hop
    · show (stepOpC _ _ op f.w).2 = runOpsC _ _ ((.init allOk :: ops) ++ [op]) _
      rw [happ, h2]
      rfl
  · intro f _
    exact hb _ _ _

/-- C87: in every history, over any number of restarts, the node zone and the node sub-zone stored are the ones written last to the
registers 0 and 1 of page 0 by an accepted write, or 255 if the factory settings were restored since then. -/
theorem C87_zones (s : Surr) (ps : Nat → U8) (l : List Move) (hl : ∀ m ∈ l, MoveOk m) :
    (fw s ps l).w.ps (Ps.addrZone (cfg s.sz)) = regAfter 0 (ps (Ps.addrZone (cfg s.sz))) (fw s ps l).trace ∧
    (fw s ps l).w.ps (Ps.addrSubZone (cfg s.sz)) = regAfter 1 (ps (Ps.addrSubZone (cfg s.sz))) (fw s ps l).trace := by
  have step : ∀ (past : List Out) (w w' : W), Zones w w' →
      (w.ps 8 = regAfter 0 (ps 8) (past ++ w.out) ∧ w.ps 9 = regAfter 1 (ps 9) (past ++ w.out)) →
      (w'.ps 8 = regAfter 0 (ps 8) (past ++ w'.out) ∧ w'.ps 9 = regAfter 1 (ps 9) (past ++ w'.out)) := by
    rintro past w w' ⟨t, h1, h2, h3⟩ ⟨h4, h5⟩
    rw [h1, ← List.append_assoc, regAfter_append, regAfter_append _ _ (past ++ w.out), ← h4, ← h5]
    exact ⟨h2, h3⟩
  refine run_inv (s := s) (P := fun f => f.w.ps 8 = regAfter 0 (ps 8) (f.past ++ f.w.out) ∧ f.w.ps 9 = regAfter 1 (ps 9) (f.past ++ f.w.out))
    ?_ ?_ (fun _ _ h => h) (fun _ _ h => h) l hl _ ?_
  · intro op f hop _ h
    exact step _ _ _ (zones_op _ hop _) h
  · intro f h
    refine step _ (powerUp f.w.ps) _ (zones_init (sz := s.sz) (e := s.env (f.life + 1)) (s.stack (f.life + 1)) (fun _ => true) (powerUp f.w.ps)) ?_
    rw [show (powerUp f.w.ps).out = [] from rfl, List.append_nil]
    exact h
  · exact step [] (powerUp ps) _ (zones_init (sz := s.sz) (e := s.env 0) (s.stack 0) (fun _ => true) (powerUp ps)) ⟨rfl, rfl⟩

theorem served {sz : Nat} {e : Env} {addr : U8} (h : addr.toNat < 0x80) : appServed (ctx sz e) 0 addr = true := by
  rw [appServed_iff]
  refine ⟨fun h' => by have := h'.2; omega, fun h' => ?_, fun h' => (by cases h'.1)⟩
  have : Dm.isDecisionMatrix (cfg sz) 0 addr = false := by
    simp [Dm.isDecisionMatrix, Dm.isDecisionMatrixStd, Dm.rows, Dm.startPage, Dm.lastPage, Dm.startOffset, cfg]
    omega
  exact absurd (this.symm.trans h'.2) Bool.false_ne_true

/-! ### A cycle -/

/-- The node behind the handling of a received event, before the actions. -/
def handled (c : Ctx) (m : Msg) (w : W) : W :=
  if m.cls = 0 then handle c m (preProcess c (some m) w).2 else addOut (.event m) (preProcess c (some m) w).2

theorem cb_event {st : Nat → Vector U8 8} {c : Ctx} {w : W} {o : Out} (ho : ∀ a p m, o ≠ .action a p m) :
    callback c (cb st) (addOut o w) = ((), addOut o w) := by
  have : cb st (addOut o w) = [] := by
    unfold cb
    rw [show (addOut o w).out.getLast? = some o from List.getLast?_concat ..]
    cases o with
    | action a p m => exact absurd rfl (ho a p m)
    | _ => rfl
  show ((), runOps c (cb st (addOut o w)) _) = _
  rw [this]
  rfl

theorem info_payload (nick typ : U8) (stack : Vector U8 8) : Info typ nick (infoMsg nick typ stack) := by
  refine ⟨rfl, rfl, rfl, rfl, rfl, ?_⟩
  show (((stack.set 0 0).set 1 0xFF).set 2 0xFF).toList.take 3 = _
  apply List.ext_getElem
  · simp
  · intro i h1 h2
    simp only [List.length_cons, List.length_nil] at h2
    have : i = 0 ∨ i = 1 ∨ i = 2 := by omega
    rcases this with rfl | rfl | rfl <;> simp

/-- What the application does for an action. -/
theorem cb_action {sz : Nat} {e : Env} (st : Nat → Vector U8 8) (a p : U8) (m : Msg) (w : W) :
    ∃ tp ub t, (callback (ctx sz e) (cb st) (addOut (.action a p m) w)).2 = { w with tp := tp, ub := ub, out := w.out ++ t } ∧
      Reacts w.v.nick [.action a p m] t := by
  have hcb : cb st (addOut (.action a p m) w) = if a = 1 then [.sendEvent (infoMsg w.v.nick 3 (st (w.out.length + 1)))]
      else if a = 2 then [.sendEvent (infoMsg w.v.nick 4 (st (w.out.length + 1)))] else [] := by
    unfold cb
    rw [show (addOut (.action a p m) w).out.getLast? = some (.action a p m) from List.getLast?_concat ..]
    show (if a = 1 then [Op.sendEvent (infoMsg w.v.nick 3 (st (w.out ++ [Out.action a p m]).length))]
      else if a = 2 then [Op.sendEvent (infoMsg w.v.nick 4 (st (w.out ++ [Out.action a p m]).length))] else []) = _
    rw [List.length_append]
    rfl
  show ∃ tp ub t, runOps (ctx sz e) (cb st (addOut (.action a p m) w)) (addOut (.action a p m) w) = _ ∧ _
  rw [hcb]
  have send : ∀ x : Msg, ∃ tp ub r, runOps (ctx sz e) [.sendEvent x] (addOut (.action a p m) w) =
      { w with tp := tp, ub := ub, out := w.out ++ [.action a p m, .tx x r] } := by
    intro x
    obtain ⟨tp, ub, t, h1, h2⟩ := writeMessage_frame (ctx sz e) x (addOut (.action a p m) w)
    rcases h2 with rfl | ⟨-, h, -⟩
    · refine ⟨tp, ub, (writeMessage (ctx sz e) x (addOut (.action a p m) w)).1, ?_⟩
      show (writeMessage (ctx sz e) x (addOut (.action a p m) w)).2 = _
      rw [h1]
      exact congrArg (fun o => ({ w with tp := tp, ub := ub, out := o } : W)) (List.append_assoc ..)
    · cases h
  by_cases h1 : a = 1
  · subst h1
    rw [if_pos rfl]
    obtain ⟨tp, ub, r, h⟩ := send (infoMsg w.v.nick 3 (st (w.out.length + 1)))
    exact ⟨tp, ub, _, h, .on (info_payload _ _ _) .nil⟩
  · rw [if_neg h1]
    by_cases h2 : a = 2
    · subst h2
      rw [if_pos rfl]
      obtain ⟨tp, ub, r, h⟩ := send (infoMsg w.v.nick 4 (st (w.out.length + 1)))
      exact ⟨tp, ub, _, h, .off (info_payload _ _ _) .nil⟩
    · rw [if_neg h2]
      exact ⟨w.tp, w.ub, [.action a p m], rfl, .other h1 h2 .nil⟩

theorem Reacts.append {n : U8} {l l' t t' : List Out} (h : Reacts n l t) (h' : Reacts n l' t') : Reacts n (l ++ l') (t ++ t') := by
  induction h with
  | nil => exact h'
  | on hi _ ih => exact .on hi ih
  | off hi _ ih => exact .off hi ih
  | other h1 h2 _ ih => exact .other h1 h2 ih

theorem exec_rows {sz : Nat} {e : Env} (st : Nat → Vector U8 8) (m : Msg) (w : W) (n : Nat) (hn : n ≤ 2) :
    ∃ tp ub t, (forUp (Dm.execRowC (ctx sz e) (cb st) m) n w).2 = { w with tp := tp, ub := ub, out := w.out ++ t } ∧
      Reacts w.v.nick ((List.range n).filterMap (rowCalls (matrix (cfg sz) w.ps) m m.data.toList)) t := by
  induction n with
  | zero => exact ⟨w.tp, w.ub, [], by rw [List.append_nil]; rfl, .nil⟩
  | succ n ih =>
    obtain ⟨tp, ub, t, h1, h2⟩ := ih (by omega)
    have e1 : (forUp (Dm.execRowC (ctx sz e) (cb st) m) (n + 1) w).2 =
        (Dm.execRowC (ctx sz e) (cb st) m n (forUp (Dm.execRowC (ctx sz e) (cb st) m) n w).2).2 := rfl
    have e2 := execRowC_run (ctx sz e) (cb st) m n { w with tp := tp, ub := ub, out := w.out ++ t } rfl (show n < 2 by omega)
    rw [e1, h1, e2, List.range_succ, List.filterMap_append]
    have ht : ∀ x, List.filterMap (rowCalls (matrix (cfg sz) w.ps) m m.data.toList) [n] = x ↔
      (rowCalls (matrix (cfg sz) w.ps) m m.data.toList n).toList = x := by
      intro x; cases h : rowCalls (matrix (cfg sz) w.ps) m m.data.toList n <;> simp [h]
    rw [(ht _).mpr rfl]
    have e3 : matrix (ctx sz e).toCfg w.ps = matrix (cfg sz) w.ps := rfl
    dsimp only
    rw [e3]
    cases hc : rowCalls (matrix (cfg sz) w.ps) m m.data.toList n with
    | none => exact ⟨tp, ub, t, rfl, by simpa using h2⟩
    | some o =>
      have ho : ∃ a p, o = .action a p m := by
        unfold rowCalls Spec.Dm.call at hc
        split at hc
        · split at hc
          · exact ⟨_, _, (Option.some.inj hc).symm⟩
          · exact ⟨_, _, (Option.some.inj hc).symm⟩
        · cases hc
      obtain ⟨a, p, rfl⟩ := ho
      obtain ⟨tp', ub', t', h3, h4⟩ := cb_action (sz := sz) (e := e) st a p m { w with tp := tp, ub := ub, out := w.out ++ t }
      refine ⟨tp', ub', t ++ t', ?_, Reacts.append h2 h4⟩
      rw [← List.append_assoc]
      exact h3

/-- A cycle of an active node which receives an event. -/
theorem cycle {sz : Nat} {e : Env} (st : Nat → Vector U8 8) (m : Msg) (w : W) (ha : w.v.st = .active) :
    ∃ tp ub t, (stepOpC (ctx sz e) (cb st) (.process (some m)) w).2 =
        (Core.activeExtRead (ctx sz e) (Core.activeHeartbeat (ctx sz e)
          { handled (ctx sz e) m w with tp := tp, ub := ub, out := (handled (ctx sz e) m w).out ++ t }).2).2 ∧
      Reacts (handled (ctx sz e) m w).v.nick (calls (matrix (cfg sz) (handled (ctx sz e) m w).ps) m m.data.toList) t := by
  have hev : (Core.activeEventC (ctx sz e) (cb st) m (preProcess (ctx sz e) (some m) w).2).2 =
      (Dm.executeActionsC (ctx sz e) (cb st) m (handled (ctx sz e) m w)).2 := by
    unfold Core.activeEventC handled
    by_cases hc : m.cls = 0
    · rw [if_pos (show m.cls = Transport.CLASS_PROTOCOL from hc), if_pos hc]
      rw [bind_run]
      have : Core.handleProtocolClassTypeC (ctx sz e) (cb st) m (preProcess (ctx sz e) (some m) w).2 =
          ((), handle (ctx sz e) m (preProcess (ctx sz e) (some m) w).2) := by
        unfold Core.handleProtocolClassTypeC
        rw [bind_run, whenM_run, if_neg (fun h => (by cases h.2.1))]
      rw [if_neg (fun h => (by cases h)), this]
      rfl
    · rw [if_neg (show ¬ m.cls = Transport.CLASS_PROTOCOL from hc), if_neg hc]
      rw [bind_run]
      have : ((emit (.event m) >>= fun _ => callback (ctx sz e) (cb st)) : M Unit) (preProcess (ctx sz e) (some m) w).2 =
          ((), addOut (.event m) (preProcess (ctx sz e) (some m) w).2) := by
        rw [bind_run, emit_run]
        exact cb_event (fun _ _ _ h => (by cases h))
      rw [this]
      rfl
  rw [process_event (ctx sz e) (cb st) (some m) m w ha rfl, hev]
  obtain ⟨tp, ub, t, h1, h2⟩ := exec_rows (sz := sz) (e := e) st m (handled (ctx sz e) m w) 2 (Nat.le_refl _)
  refine ⟨tp, ub, t, ?_, h2⟩
  rw [← h1]
  rfl

theorem rows_action (x : Matrix) (m : Msg) (d : List U8) (i : Nat) (o : Out) (h : rowCalls x m d i = some o) :
    ∃ a p, o = .action a p m := by
  unfold rowCalls Spec.Dm.call at h
  split at h
  · split at h
    · exact ⟨_, _, (Option.some.inj h).symm⟩
    · exact ⟨_, _, (Option.some.inj h).symm⟩
  · cases h

theorem quiet_trace {c : Ctx} {bad : Prop} {A : List Act} {w w' : W} (hs : Steps c bad A w w') (h : Act.action ∉ A) (h' : Act.resetReq ∉ A) :
    ∃ t, w'.out = w.out ++ t ∧ actions t = [] ∧ .resetRequest ∉ t := by
  obtain ⟨t, h1, h2⟩ := hs.outs
  refine ⟨t, h1, actions_none fun o ho a p m' hx => ?_, fun hx => ?_⟩
  · obtain ⟨x, hx', he⟩ := h2 o ho
    subst hx
    cases x with
    | action => exact h hx'
    | _ => simp [Act.emits] at he
  · obtain ⟨x, hx', he⟩ := h2 _ hx
    cases x with
    | resetReq => exact h' hx'
    | _ => simp [Act.emits] at he

/-- The calls made while an event is handled, before the actions. -/
theorem handled_trace {sz : Nat} {e : Env} (m : Msg) (w : W) (hm : m.size.toNat ≤ 8) : ∃ t, (handled (ctx sz e) m w).out = w.out ++ t ∧
    (handled (ctx sz e) m w).ps = memAfter w.ps t ∧ actions t = [] ∧ .resetRequest ∉ t ∧ (m.cls ≠ 0 → t = [.event m]) := by
  have hps : (preProcess (ctx sz e) (some m) w).2.ps = w.ps := pre_same (ctx sz e) (some m) w .ps (by decide)
  unfold handled
  by_cases hc : m.cls = 0
  · rw [if_pos hc]
    have hs := Foot.handleProtocolClassType (c := ctx sz e) (bad := False) (m := m) (fun h => absurd hm (by omega))
      (preProcess (ctx sz e) (some m) w).2
    obtain ⟨t, h1, h2⟩ := quiet_trace hs (by decide) (by decide)
    obtain ⟨t', h1', h2', -⟩ := hs.trace (fun h => h) (user := []) (fun m h => by simp [protoActs, writeActs] at h)
    have : t' = t := List.append_cancel_left (h1'.symm.trans h1)
    subst this
    rw [hps] at h2'
    refine ⟨t', ?_, h2', h2.1, h2.2, fun h => absurd hc h⟩
    show (Core.handleProtocolClassType (ctx sz e) m (preProcess (ctx sz e) (some m) w).2).2.out = _
    rw [h1, pre_out]
  · rw [if_neg hc]
    refine ⟨[.event m], ?_, hps, rfl, by simp, fun _ => rfl⟩
    show (preProcess (ctx sz e) (some m) w).2.out ++ _ = _
    rw [pre_out]

theorem tail_trace {sz : Nat} {e : Env} (w : W) : ∃ t, (Core.activeExtRead (ctx sz e) (Core.activeHeartbeat (ctx sz e) w).2).2.out = w.out ++ t ∧
    actions t = [] ∧ .resetRequest ∉ t ∧ (Core.activeExtRead (ctx sz e) (Core.activeHeartbeat (ctx sz e) w).2).2.v.nick = w.v.nick ∧
    ∀ x ∈ frames t, x.cls = 20 ∧ x.typ = 9 ∨ x.cls = 0 ∧ x.typ = 39 := by
  have hs : Steps (ctx sz e) True [.customHb, .tx, .tm .heartbeat, .alarm, .appRead, .ext] w
      (Core.activeExtRead (ctx sz e) (Core.activeHeartbeat (ctx sz e) w).2).2 :=
    Steps.trans (Foot.mono .activeHeartbeat (by decide) _) (Foot.mono .activeExtRead (by decide) _)
  obtain ⟨t, h1, h2, h3⟩ := quiet_trace hs (by decide) (by decide)
  obtain ⟨t', h1', h2'⟩ := (Tail.hbExt (ctx sz e) w).sends
  have : t' = t := List.append_cancel_left (h1'.symm.trans h1)
  subst this
  refine ⟨t', h1, h2, h3, hs.same .nick (by decide), fun x hx => ?_⟩
  rcases h2' x hx with h | h
  · exact .inl ⟨h.1, h.2.1⟩
  · exact .inr ⟨h.1, h.2.1⟩

theorem reacts_only {n : U8} {l t : List Out} (h : Reacts n l t) : actions t = l ∧ .resetRequest ∉ t := by
  induction h with
  | nil => exact ⟨rfl, by simp⟩
  | on hi _ ih => exact ⟨by rw [← ih.1]; rfl, by simpa using ih.2⟩
  | off hi _ ih => exact ⟨by rw [← ih.1]; rfl, by simpa using ih.2⟩
  | other h1 h2 _ ih => exact ⟨by rw [← ih.1]; rfl, by simpa using ih.2⟩

/-! ### C88 -/

/-- C88: an active node which receives an event executes exactly the actions of the rows of its decision matrix which match, in the order
of the rows; action 1 sends directly afterwards CLASS1.INFORMATION On, action 2 CLASS1.INFORMATION Off, with its nickname as origin and for all
zones, other actions nothing.  Afterwards only a heartbeat and an extended page response may be sent.  The matrix is the one stored when the actions are executed, i.e. after the event itself was handled. -/
theorem C88_actions (s : Surr) (f : Fw) (m : Msg) (ha : f.w.v.st = .active) (hm : m.size.toNat ≤ 8) :
    ∃ pre t post, (call s (.process (some m)) f).w.out = f.w.out ++ (pre ++ t ++ post) ∧
      Reacts (call s (.process (some m)) f).w.v.nick (calls (matrix (cfg s.sz) (memAfter f.w.ps pre)) m m.data.toList) t ∧
      (m.cls ≠ 0 → pre = [.event m]) ∧ actions pre = [] ∧ actions post = [] ∧
      (∀ x ∈ frames post, x.cls = 20 ∧ x.typ = 9 ∨ x.cls = 0 ∧ x.typ = 39) ∧ .resetRequest ∉ pre ++ t ++ post := by
  obtain ⟨tp, ub, t, h1, h2⟩ := cycle (sz := s.sz) (e := s.env f.life) (s.stack f.life) m f.w ha
  obtain ⟨pre, p1, p2, p3, p4, p5⟩ := handled_trace (sz := s.sz) (e := s.env f.life) m f.w hm
  obtain ⟨post, q1, q2, q3, q4, q5⟩ := tail_trace (sz := s.sz) (e := s.env f.life)
    { handled (s.ctx f.life) m f.w with tp := tp, ub := ub, out := (handled (s.ctx f.life) m f.w).out ++ t }
  refine ⟨pre, t, post, ?_, ?_, p5, p3, q2, q5, ?_⟩
  · show (stepOpC (s.ctx f.life) (s.cb f.life) (.process (some m)) f.w).2.out = _
    rw [h1, q1]
    show (handled (s.ctx f.life) m f.w).out ++ t ++ post = _
    rw [p1]
    simp only [List.append_assoc]
  · have : (call s (.process (some m)) f).w.v.nick = (handled (s.ctx f.life) m f.w).v.nick := by
      show (stepOpC (s.ctx f.life) (s.cb f.life) (.process (some m)) f.w).2.v.nick = _
      rw [h1, q4]
    rw [this, ← p2]
    exact h2
  · simp only [List.mem_append, not_or]
    exact ⟨⟨p4, (reacts_only h2).2⟩, q3⟩

/-- Everything else executes no action. -/
theorem calm_op {sz : Nat} {e : Env} (st : Nat → Vector U8 8) (op : Op) (w : W)
    (h : ∀ rx, op = .process rx → w.v.st ≠ .active ∨ rx = none) :
    (stepOpC (ctx sz e) (cb st) op w).2 = (stepOp (ctx sz e) op w).2 := by
  cases op with
  | process rx =>
    have hst : (preProcess (ctx sz e) rx w).2.v.st = w.v.st := pre_same (ctx sz e) rx w .st (by decide)
    have hd : Core.dispatchC (ctx sz e) (cb st) (preProcess (ctx sz e) rx w).1 (preProcess (ctx sz e) rx w).2 =
        Core.dispatch (ctx sz e) (preProcess (ctx sz e) rx w).1 (preProcess (ctx sz e) rx w).2 := by
      have hr : rx = none → (preProcess (ctx sz e) rx w).1 = none := by rintro rfl; rw [preProcess_rx]; rfl
      have hx := h rx rfl
      generalize (preProcess (ctx sz e) rx w).1 = r at hr
      generalize (preProcess (ctx sz e) rx w).2 = w1 at hst
      unfold Core.dispatchC
      rw [bind_run, get_run]
      dsimp only
      cases hs : w1.v.st with
      | active =>
        rw [hr (hx.resolve_left (fun hn => hn (hst.symm.trans hs)))]
        unfold Core.dispatch
        rw [bind_run, get_run]
        simp only [hs]
        rfl
      | _ => rfl
    show (Core.processC (ctx sz e) (cb st) rx w).2 = (Core.process (ctx sz e) rx w).2
    rw [processC_split, process_split, hd]
  | _ => rfl

/-- C88: no other call of the firmware executes an action. -/
theorem C88_only (s : Surr) (f : Fw) (op : Op) (h : ∀ rx, op = .process rx → f.w.v.st ≠ .active ∨ rx = none) :
    ∃ t, (call s op f).w.out = f.w.out ++ t ∧ actions t = [] := by
  have hc : (call s op f).w = (stepOp (s.ctx f.life) op f.w).2 := calm_op (s.stack f.life) op f.w h
  rw [hc]
  refine C49_only _ op f.w fun rx hrx => ?_
  rcases h rx hrx with h | rfl
  · exact .inl h
  · exact .inr rfl

theorem answered_none {t : List Out} (h : actions t = []) : Answered t := by
  intro pre a p m post he
  rw [he, actions_append] at h
  exact absurd (List.append_eq_nil_iff.mp h).2 (by intro h; cases h)

theorem answered_append {t t' : List Out} (h : Answered t) (h' : Answered t') : Answered (t ++ t') := by
  intro pre a p m post he
  rcases List.append_eq_append_iff.mp he with ⟨u, h1, h2⟩ | ⟨u, h1, h2⟩
  · exact h' u a p m post h2
  · cases u with
    | nil => exact h' [] a p m post h2.symm
    | cons o u =>
      simp only [List.cons_append, List.cons.injEq] at h2
      obtain ⟨rfl, rfl⟩ := h2
      obtain ⟨x1, x2⟩ := h pre a p m u h1
      constructor
      · intro ha
        obtain ⟨e, r, post', rfl, hi⟩ := x1 ha
        exact ⟨e, r, post' ++ t', rfl, hi⟩
      · intro ha
        obtain ⟨e, r, post', rfl, hi⟩ := x2 ha
        exact ⟨e, r, post' ++ t', rfl, hi⟩

theorem answered_one {a p : U8} {m : Msg} {l : List Out} (hl : actions l = [])
    (h1 : a = 1 → ∃ e r post', l = .tx e r :: post' ∧ Info 3 e.oAddr e)
    (h2 : a = 2 → ∃ e r post', l = .tx e r :: post' ∧ Info 4 e.oAddr e) : Answered (.action a p m :: l) := by
  intro pre a' p' m' post he
  cases pre with
  | nil =>
    simp only [List.nil_append, List.cons.injEq, Out.action.injEq] at he
    obtain ⟨⟨rfl, rfl, rfl⟩, rfl⟩ := he
    exact ⟨h1, h2⟩
  | cons o pre =>
    simp only [List.cons_append, List.cons.injEq] at he
    rw [he.2, actions_append] at hl
    exact absurd (List.append_eq_nil_iff.mp hl).2 (by intro h; cases h)

theorem info_self {typ n : U8} {e : Msg} (h : Info typ n e) : Info typ e.oAddr e := ⟨h.cls, h.typ, h.prio, rfl, h.hard, h.data⟩

theorem reacts_answered {n : U8} {l t : List Out} (h : Reacts n l t) : Answered t := by
  induction h with
  | nil => exact answered_none rfl
  | on hi _ ih => exact answered_append (answered_one (l := [_]) rfl (fun _ => ⟨_, _, [], rfl, info_self hi⟩) (fun h => (by cases h))) ih
  | off hi _ ih => exact answered_append (answered_one (l := [_]) rfl (fun h => (by cases h)) (fun _ => ⟨_, _, [], rfl, info_self hi⟩)) ih
  | other h1 h2 _ ih => exact answered_append (answered_one (l := []) rfl (fun h => absurd h h1) (fun h => absurd h h2)) ih

theorem call_answered (s : Surr) (op : Op) (hop : op.Ok) (f : Fw) : ∃ t, (call s op f).w.out = f.w.out ++ t ∧ Answered t := by
  by_cases h : ∃ m, op = .process (some m) ∧ f.w.v.st = .active
  · obtain ⟨m, rfl, ha⟩ := h
    obtain ⟨pre, t, post, h1, h2, -, h3, h4, -⟩ := C88_actions s f m ha hop
    exact ⟨_, h1, answered_append (answered_append (answered_none h3) (reacts_answered h2)) (answered_none h4)⟩
  · obtain ⟨t, h1, h2⟩ := C88_only s f op (by
      rintro rx rfl
      cases rx with
      | none => exact .inr rfl
      | some m => exact .inl fun ha => h ⟨m, rfl, ha⟩)
    exact ⟨t, h1, answered_none h2⟩

/-- C88: in every history, over any number of restarts, every action 1 is directly followed by the transmission of CLASS1.INFORMATION On and
every action 2 by the transmission of CLASS1.INFORMATION Off. -/
theorem C88_answered (s : Surr) (ps : Nat → U8) (l : List Move) (hl : ∀ m ∈ l, MoveOk m) : Answered (fw s ps l).trace := by
  have hb : ∀ past n ps, Answered past → Answered (past ++ (boot s past n ps).w.out) := by
    intro past n ps h
    refine answered_append h ?_
    have hw : (boot s past n ps).w = (stepOp (s.ctx n) (.init fun _ => true) (powerUp ps)).2 :=
      calm_op (s.stack n) _ _ (fun _ h => (by cases h))
    obtain ⟨t, h1, h2⟩ := C49_only (s.ctx n) (.init fun _ => true) (powerUp ps) (fun _ h => (by cases h))
    rw [hw, h1]
    exact answered_none h2
  refine run_inv (s := s) (P := fun f => Answered (f.past ++ f.w.out)) ?_ ?_ (fun _ _ h => h) (fun _ _ h => h) l hl _
    (hb [] 0 ps (answered_none rfl))
  · intro op f hop _ h
    obtain ⟨t, h1, h2⟩ := call_answered s op hop f
    show Answered (f.past ++ (call s op f).w.out)
    rw [h1, ← List.append_assoc]
    exact answered_append h h2
  · intro f h
    exact hb _ _ _ h

/-! ### Registers -/

/-- The calls of a cycle begin with those of the handler of the received event. -/
theorem cycle_begin (s : Surr) (f : Fw) (m : Msg) (ha : f.w.v.st = .active) (hc : m.cls = 0) :
    ∃ w1 rest, w1.v.nick = f.w.v.nick ∧ w1.ps = f.w.ps ∧ w1.out = f.w.out ∧
      (call s (.process (some m)) f).w.out = (handle (s.ctx f.life) m w1).out ++ rest ∧
      (call s (.process (some m)) f).w.ps = (handle (s.ctx f.life) m w1).ps := by
  obtain ⟨tp, ub, t, h1, h2⟩ := cycle (sz := s.sz) (e := s.env f.life) (s.stack f.life) m f.w ha
  have hh : handled (s.ctx f.life) m f.w = handle (s.ctx f.life) m (preProcess (s.ctx f.life) (some m) f.w).2 := if_pos hc
  refine ⟨(preProcess (s.ctx f.life) (some m) f.w).2, ?_⟩
  have hs : Steps (s.ctx f.life) True [.customHb, .tx, .tm .heartbeat, .alarm, .appRead, .ext]
      { handled (s.ctx f.life) m f.w with tp := tp, ub := ub, out := (handled (s.ctx f.life) m f.w).out ++ t }
      (call s (.process (some m)) f).w := by
    rw [show (call s (.process (some m)) f).w = _ from h1]
    exact Steps.trans (Foot.mono .activeHeartbeat (by decide) _) (Foot.mono .activeExtRead (by decide) _)
  obtain ⟨post, q1, -⟩ := hs.outs
  refine ⟨t ++ post, pre_same _ _ _ .nick (by decide), pre_same _ _ _ .ps (by decide), pre_out _ _ _, ?_, ?_⟩
  · rw [q1, ← hh]
    exact List.append_assoc ..
  · rw [← hh]
    exact hs.same .ps (by decide)

/-- C87: a read of an application register on page 0 is answered with its value: the node zone (register 0) and the sub-zone (register 1)
which were written last or 255 after a restore of the factory settings, and 0 for the registers which do not exist. -/
theorem C87_read (s : Surr) (ps : Nat → U8) (l : List Move) (hl : ∀ m ∈ l, MoveOk m) (m : Msg) (addr : U8)
    (ha : (fw s ps l).w.v.st = .active) (hm : Request m 9 [(fw s ps l).w.v.nick, addr]) (hr : addr.toNat < 0x80) :
    let v := if addr = 0 then regAfter 0 (ps (Ps.addrZone (cfg s.sz))) (fw s ps l).trace
      else if addr = 1 then regAfter 1 (ps (Ps.addrSubZone (cfg s.sz))) (fw s ps l).trace else 0
    ∃ ok rest, (call s (.process (some m)) (fw s ps l)).w.out = (fw s ps l).w.out ++
      ([.appRead 0 addr v, .tx (event (s.ctx (fw s ps l).life) (fw s ps l).w.v.nick 3 10 [addr, v]) ok] ++ rest) := by
  obtain ⟨hz, hsz⟩ := C87_zones s ps l hl
  rw [← hz, ← hsz]
  generalize fw s ps l = f at *
  obtain ⟨w1, rest, h1, h2, h3, h4, -⟩ := cycle_begin s f m ha hm.cls
  have hh := handle_read (s.ctx f.life) w1 m addr (by rw [h1]; exact hm)
  rw [appServed_run (served hr)] at hh
  intro v
  have hv : (s.ctx f.life).appRead w1.out.length w1.ps 0 addr = v := by
    show readRegister s.sz w1.ps 0 addr = _
    unfold readRegister
    rw [if_pos rfl, if_pos (by omega), h2]
  rw [hv] at hh
  refine ⟨(s.ctx f.life).txOk (w1.out ++ [Out.appRead 0 addr v]).length, rest, ?_⟩
  rw [h4]
  show (Core.handleProtocolClassType (s.ctx f.life) m w1).2.out ++ rest = _
  rw [hh, sent_out]
  show (w1.out ++ [Out.appRead 0 addr v]) ++ [Out.tx (event (s.ctx f.life) w1.v.nick 3 10 [addr, v]) _] ++ rest = _
  rw [h3, h1]
  simp only [List.append_assoc]
  rfl

/-- C87: a write of an application register on page 0 while writes are enabled: the zone (register 0) or the sub-zone (register 1) is stored and
the written value confirmed; a write of a register which does not exist stores nothing and is confirmed with 0. -/
theorem C87_write (s : Surr) (f : Fw) (m : Msg) (addr v : U8) (ha : f.w.v.st = .active)
    (hm : Request m 11 [f.w.v.nick, addr, v]) (hr : addr.toNat < 0x80) (hw : writeEnable (f.w.ps (Ps.addrFlags (cfg s.sz))) = true) :
    ∃ x st ok rest, (call s (.process (some m)) f).w.out = f.w.out ++
        ([.appWrite 0 addr v x] ++ st ++ [.tx (event (s.ctx f.life) f.w.v.nick 3 10 [addr, x]) ok] ++ rest) ∧
      (addr = 0 → x = v ∧ st = [.psW (Ps.addrZone (cfg s.sz)) v]) ∧ (addr = 1 → x = v ∧ st = [.psW (Ps.addrSubZone (cfg s.sz)) v]) ∧
      (addr ≠ 0 → addr ≠ 1 → x = 0 ∧ st = []) ∧
      (call s (.process (some m)) f).w.ps = memAfter f.w.ps st := by
  obtain ⟨w1, rest, h1, h2, h3, h4, h5⟩ := cycle_begin s f m ha hm.cls
  have hac : accepted (s.ctx f.life) w1 0 addr = true := by
    unfold accepted
    rw [if_neg (fun h => by have := h.2; omega), h2]
    exact hw
  have hh := handle_write (s.ctx f.life) w1 m addr v (by rw [h1]; exact hm)
  rw [writeRegister_app hac (served hr)] at hh
  simp only [if_true] at hh
  have hst : Core.appStores (s.ctx f.life) w1.out.length 0 addr v = if addr = 0 then [(8, v)] else if addr = 1 then [(9, v)] else [] := by
    show (match writeZone 0 addr v with | some z => [(8, z)] | none => []) ++ (match writeSubZone 0 addr v with | some z => [(9, z)] | none => []) = _
    unfold writeZone writeSubZone
    by_cases h0 : addr = 0
    · subst h0; rfl
    · by_cases h1 : addr = 1
      · subst h1; rfl
      · rw [if_neg h0, if_neg h1, if_neg (fun h => h0 h.2.2), if_neg (fun h => h1 h.2.2)]; rfl
  have hx : (s.ctx f.life).appWrite w1.out.length w1.ps 0 addr v = if addr = 0 ∨ addr = 1 then v else 0 := by
    show writeRegister 0 addr v = _
    unfold writeRegister
    rw [if_pos rfl, if_pos (by omega)]
    by_cases h0 : addr = 0
    · rw [if_pos h0, if_pos (.inl h0)]
    · by_cases h1 : addr = 1
      · rw [if_neg h0, if_pos h1, if_pos (.inr h1)]
      · rw [if_neg h0, if_neg h1, if_neg (by rintro (h | h) <;> contradiction)]
  rw [hx, hst] at hh
  obtain ⟨ok, ho⟩ : ∃ ok, (call s (.process (some m)) f).w.out = f.w.out ++ ([.appWrite 0 addr v (if addr = 0 ∨ addr = 1 then v else 0)] ++
      traceOf (if addr = 0 then [(8, v)] else if addr = 1 then [(9, v)] else []) ++
      [.tx (event (s.ctx f.life) f.w.v.nick 3 10 [addr, if addr = 0 ∨ addr = 1 then v else 0]) ok] ++ rest) := by
    generalize (if addr = 0 then [((8 : Nat), v)] else if addr = 1 then [(9, v)] else []) = z at hh
    generalize (if addr = 0 ∨ addr = 1 then v else 0) = x at hh
    refine ⟨(s.ctx f.life).txOk ((w1.out ++ [Out.appWrite 0 addr v x]) ++ traceOf z).length, ?_⟩
    rw [h4, hh, sent_out]
    show (w1.out ++ [Out.appWrite 0 addr v x]) ++ traceOf z ++ [Out.tx (event (s.ctx f.life) w1.v.nick 3 10 [addr, x])
      ((s.ctx f.life).txOk ((w1.out ++ [Out.appWrite 0 addr v x]) ++ traceOf z).length)] ++ rest = _
    rw [h3, h1]
    simp only [List.append_assoc]
  refine ⟨_, traceOf (if addr = 0 then [(8, v)] else if addr = 1 then [(9, v)] else []), ok, rest, ho, ?_, ?_, ?_, ?_⟩
  · intro h; exact ⟨if_pos (.inl h), by rw [if_pos h]; rfl⟩
  · intro h; subst h; exact ⟨rfl, rfl⟩
  · intro h0 h1; exact ⟨if_neg (by rintro (h | h) <;> contradiction), by rw [if_neg h0, if_neg h1]; rfl⟩
  · rw [h5, hh, memAfter_traceOf, ← h2]
    rw [sent_ps]
    rfl

/-- C87: while writes are not enabled, a write of these registers changes nothing in the memory and is not answered: only the actions for the
event itself, a heartbeat and an extended page response may follow. -/
theorem C87_protected (s : Surr) (f : Fw) (m : Msg) (addr v : U8) (ha : f.w.v.st = .active)
    (hm : Request m 11 [f.w.v.nick, addr, v]) (hr : addr.toNat < 0x80) (hw : writeEnable (f.w.ps (Ps.addrFlags (cfg s.sz))) = false) :
    (call s (.process (some m)) f).w.ps = f.w.ps ∧
      ∃ t post, (call s (.process (some m)) f).w.out = f.w.out ++ (t ++ post) ∧
        Reacts f.w.v.nick (calls (matrix (cfg s.sz) f.w.ps) m m.data.toList) t ∧ actions post = [] ∧
        ∀ x ∈ frames post, x.cls = 20 ∧ x.typ = 9 ∨ x.cls = 0 ∧ x.typ = 39 := by
  obtain ⟨tp, ub, t, h1, h2⟩ := cycle (sz := s.sz) (e := s.env f.life) (s.stack f.life) m f.w ha
  have hh : handled (s.ctx f.life) m f.w = (preProcess (s.ctx f.life) (some m) f.w).2 := by
    unfold handled
    rw [if_pos hm.cls]
    have hn : (preProcess (s.ctx f.life) (some m) f.w).2.v.nick = f.w.v.nick := pre_same _ _ _ .nick (by decide)
    have hp : (preProcess (s.ctx f.life) (some m) f.w).2.ps = f.w.ps := pre_same _ _ _ .ps (by decide)
    refine C20_rejected _ _ m addr v (by rw [hn]; exact hm) ?_
    rw [if_neg (by omega), hp]
    exact hw
  have hn : (handled (s.ctx f.life) m f.w).v.nick = f.w.v.nick := by rw [hh]; exact pre_same _ _ _ .nick (by decide)
  have hp : (handled (s.ctx f.life) m f.w).ps = f.w.ps := by rw [hh]; exact pre_same _ _ _ .ps (by decide)
  have ho : (handled (s.ctx f.life) m f.w).out = f.w.out := by rw [hh]; exact pre_out _ _ _
  have hw' : (call s (.process (some m)) f).w = _ := h1
  refine ⟨?_, ?_⟩
  · rw [hw', (Tail.hbExt _ _).steps.same .ps (by decide)]
    exact hp
  · obtain ⟨post, q1, q2, q3, q4, q5⟩ := tail_trace (sz := s.sz) (e := s.env f.life)
      { handled (s.ctx f.life) m f.w with tp := tp, ub := ub, out := (handled (s.ctx f.life) m f.w).out ++ t }
    refine ⟨t, post, ?_, by rw [← hn, ← hp]; exact h2, q2, q5⟩
    rw [hw', q1]
    show (handled (s.ctx f.life) m f.w).out ++ t ++ post = _
    rw [ho, List.append_assoc]

end Vscp.AvrProps
