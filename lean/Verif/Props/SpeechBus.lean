/-
Property theorems: a node on the CAN bus, and the AVR example, send nothing without a reason (C118).
-/
import Verif.Spec.SpeechBus
import Verif.Props.SpeechC
import Verif.Props.AvrSys

namespace Vscp.Speech
open M Spec Transport Safety Vscp.Driver
open Vscp.Driver.CanNode (Around Node)

/-- C118: every frame which a node puts on the CAN bus carries an event which the node was told to send at that point of its history: by a call of the
application, or in a cycle as in `C118_callbacks`. -/
theorem C118_bus {c : Ctx} (hc : GoodCfg c) {cb : Callbacks} (hcb : CbOk cb) (a : Around) (ok : Tmr → Bool) (ps : Nat → U8) (s : CanDrv.State)
    (l : List CanNode.Move) (hl : ∀ mv ∈ l, Spec.CanNode.Ok mv) {n : Node} (hn : CanNode.run c cb a l (CanNode.boot c cb ok ps s) = .ok n)
    (hfit : ∀ m, Vscp.Sends cb m ∨ .call (.sendEvent m) ∈ l → m.prio.toNat < 8 ∧ m.cls.toNat < 512) {b : CanDrv.BusFrame} (hb : b ∈ n.x.2.wire) :
    ∃ rs ops1 op ops2 f, .init ok :: Spec.CanNode.callsOf l rs = ops1 ++ op :: ops2 ∧ n.heard = rs.filterMap id ∧
      n.w = runOpsC c cb (.init ok :: Spec.CanNode.callsOf l rs) (powerUp ps) ∧
      ToldC c cb op (runOpsC c cb ops1 (powerUp ps)) f ∧ b = Spec.CanNode.frameOf f := by
  obtain ⟨waiting, hp, -⟩ := CanNode.C105_out hc hcb a ok ps s l hl hn hfit
  have hm : b ∈ (Spec.CanNode.taken n.w.out).map Spec.CanNode.frameOf := hp.subset (List.mem_append_left _ hb)
  obtain ⟨f, hf, rfl⟩ := List.mem_map.mp hm
  unfold Spec.CanNode.taken at hf
  obtain ⟨o, ho, e⟩ := List.mem_filterMap.mp hf
  obtain ⟨rs, -, h2, h3, -⟩ := CanNode.C105_history hc hcb a ok ps s l hl hn
  have ho' : Out.tx f true = o := by
    cases o <;> first | (cases e; done) | skip
    rename_i m r
    cases r with
    | false => cases e
    | true => cases e; rfl
  subst ho'
  rw [h3] at ho
  obtain ⟨ops1, op, ops2, g1, g2⟩ := C118_callbacks_history hcb ho
  exact ⟨rs, ops1, op, ops2, f, g1, h2, h3, g2, rfl⟩

section
variable {st : Nat → Vector U8 8} {w : W}

theorem avr_cb {op : Op} (h : op ∈ Avr.cb st w) : ∃ a p m, w.out.getLast? = some (.action a p m) ∧
    (a = 1 ∧ op = .sendEvent (Avr.infoMsg w.v.nick 3 (st w.out.length)) ∨ a = 2 ∧ op = .sendEvent (Avr.infoMsg w.v.nick 4 (st w.out.length))) := by
  unfold Avr.cb at h
  split at h
  · rename_i a p m hl
    split at h
    · rename_i ha; exact ⟨a, p, m, hl, .inl ⟨ha, List.mem_singleton.mp h⟩⟩
    · split at h
      · rename_i ha; exact ⟨a, p, m, hl, .inr ⟨ha, List.mem_singleton.mp h⟩⟩
      · cases h
  · cases h

theorem avr_cb_sends {op : Op} (h : op ∈ Avr.cb st w) : ∃ m, op = .sendEvent m := by
  obtain ⟨_, _, _, -, ⟨-, h⟩ | ⟨-, h⟩⟩ := avr_cb h <;> exact ⟨_, h⟩

theorem info_payload (nick typ : U8) (stack : Vector U8 8) : payload (Avr.infoMsg nick typ stack) = [0, 0xFF, 0xFF] := by
  rcases stack with ⟨⟨l⟩, hl⟩
  match l, hl with
  | [_, _, _, _, _, _, _, _], _ => rfl

theorem avr_reason {c : Ctx} {rx : Option Msg} {e : List Out} {f : Msg} (h : ReasonC c (Avr.cb st) rx w e f) : AvrReason c rx w e f := by
  cases h with
  | app x hx h =>
    obtain ⟨a, p, m, h1, h2⟩ := avr_cb h
    obtain ⟨t1, o, t2, h3, -, h4⟩ := hx
    rw [h3, List.getLast?_append] at h1
    simp only [List.getLast?_singleton, Option.some_or, Option.some.injEq] at h1
    subst h1
    refine .lamp t1 t2 a p m (by rw [h4, h3]; simp) ?_ ?_
    · rcases h2 with ⟨h2, h5⟩ | ⟨h2, h5⟩ <;> cases h5
      · exact .inl ⟨h2, rfl⟩
      · exact .inr ⟨h2, rfl⟩
    · rcases h2 with ⟨h2, h5⟩ | ⟨h2, h5⟩ <;> cases h5 <;> exact ⟨rfl, rfl, info_payload _ _ _⟩
  | log x hx h hf =>
    rcases h with ⟨_, _, _, h⟩ | ⟨_, _, _, h⟩ <;> (obtain ⟨_, h⟩ := avr_cb_sends h; cases h)
  | answer m h hm hc hf ht =>
    refine .framework (.answer m h hm (hc.resolve_right ?_) hf ht)
    rintro ⟨-, x, -, h | h⟩ <;> (obtain ⟨_, h⟩ := avr_cb_sends h; cases h)
  | stream ha h hf ht => exact .framework (.stream ha h hf ht)
  | heartbeat ha h hon hc ht hf =>
    refine .framework (.heartbeat ha h (hon.resolve_right ?_) hc ht hf)
    rintro ⟨x, b, -, h⟩
    obtain ⟨_, h⟩ := avr_cb_sends h; cases h
  | other h r => exact .framework r

end

theorem grows_run {c : Ctx} {cb : Callbacks} (hcb : CbOk cb) : ∀ (ops : List Op) (w : W), ∃ t, (runOpsC c cb ops w).out = w.out ++ t
  | [], w => ⟨[], by simp [runOpsC]⟩
  | op :: ops, w => by
    obtain ⟨t, h1⟩ := grows_callbacks (c := c) hcb op w
    obtain ⟨t', h2⟩ := grows_run hcb ops (stepOpC c cb op w).2
    exact ⟨t ++ t', by rw [runOpsC, h2, h1, List.append_assoc]⟩

theorem runOpsC_split (c : Ctx) (cb : Callbacks) : ∀ (l l' : List Op) (w : W), runOpsC c cb (l ++ l') w = runOpsC c cb l' (runOpsC c cb l w)
  | [], _, _ => rfl
  | op :: l, l', w => by rw [List.cons_append, runOpsC, runOpsC, runOpsC_split c cb l l']

theorem callsOf_mem : ∀ {l : List CanNode.Move} {rs : List (Option Msg)} {op : Op}, op ∈ Spec.CanNode.callsOf l rs → (∃ rx, op = .process rx) ∨ .call op ∈ l
  | [], _, _, h => by cases h
  | .cycle :: l, rs, op, h => by
    rcases List.mem_cons.mp h with h | h
    · exact .inl ⟨_, h⟩
    · exact (callsOf_mem h).imp id (List.mem_cons_of_mem _)
  | .call o :: l, rs, op, h => by
    rcases List.mem_cons.mp h with h | h
    · exact .inr (by rw [h]; simp)
    · exact (callsOf_mem h).imp id (List.mem_cons_of_mem _)
  | .rx b :: l, rs, op, h => (callsOf_mem (l := l) h).imp id (List.mem_cons_of_mem _)
  | .tx :: l, rs, op, h => (callsOf_mem (l := l) h).imp id (List.mem_cons_of_mem _)

/-- C118: every frame which the AVR example puts on the CAN bus has a reason: in a cycle of the main loop the framework has one (it answers a frame which
the controller had taken from the bus, goes on with an extended page read, sends the due heartbeat, or looks for a nickname), or an action switches
the lamp, which is confirmed to all zones. -/
theorem C118_avr {s : Avr.Surr} {a : Nat → Around} {past : List Out} {n : Nat} {ps : Nat → U8} {ctl : CanDrv.State} {l : List Avr.Sys.Move}
    (hl : ∀ mv ∈ l, AvrSys.Ok mv) {y : Avr.Sys.State} (hr : Avr.Sys.run s a l (Avr.Sys.boot s past n ps ctl) = .ok y) (hn : y.fw.life = n)
    {b : CanDrv.BusFrame} (hb : b ∈ y.x.2.wire) :
    ∃ ops rx w e f, w = runOpsC (s.ctx n) (s.cb n) (.init allOk :: ops) (powerUp ps) ∧ e = (stepOpC (s.ctx n) (s.cb n) (.process rx) w).2.out ∧
      (∃ t, y.fw.w.out = e ++ t) ∧ (∀ m, rx = some m → m ∈ y.heard) ∧ AvrReason (s.ctx n) rx w e f ∧ b = Spec.CanNode.frameOf f := by
  obtain ⟨lc, lb, evs, h1, h2, h3, -⟩ := Avr.Sys.C111_bus hl hr hn
  have hcb := AvrProps.cb_ok (s.stack n)
  have hfit : ∀ m, Vscp.Sends (s.cb n) m ∨ .call (.sendEvent m) ∈ lc → m.prio.toNat < 8 ∧ m.cls.toNat < 512 := by
    rintro m (⟨w, h⟩ | h)
    · obtain ⟨_, _, _, -, ⟨-, h⟩ | ⟨-, h⟩⟩ := avr_cb h <;> cases h <;>
        exact ⟨show (3 : U8).toNat < 8 by decide, show (20 : U16).toNat < 512 by decide⟩
    · rcases h2 _ h with h | h <;> cases h
  obtain ⟨rs, ops1, op, ops2, f, g1, g2, g3, g4, rfl⟩ := C118_bus (AvrProps.good _ _) hcb (a n) allOk ps ctl lc h1 h3 hfit hb
  cases ops1 with
  | nil =>
    simp only [List.nil_append, List.cons.injEq] at g1
    obtain ⟨rfl, -⟩ := g1
    exact g4.elim
  | cons o ops1 =>
    simp only [List.cons_append, List.cons.injEq] at g1
    obtain ⟨rfl, g1⟩ := g1
    have hop : op ∈ Spec.CanNode.callsOf lc rs := by rw [g1]; simp
    have : ∃ rx, op = .process rx := by
      refine (callsOf_mem hop).resolve_right fun h => ?_
      rcases h2 op h with rfl | rfl <;> exact g4
    obtain ⟨rx, rfl⟩ := this
    refine ⟨ops1, rx, _, _, f, rfl, rfl, ?_, ?_, avr_reason g4, rfl⟩
    · obtain ⟨t, ht⟩ := grows_run (c := s.ctx n) hcb ops2 (stepOpC (s.ctx n) (s.cb n) (.process rx) (runOpsC (s.ctx n) (s.cb n) (.init allOk :: ops1) (powerUp ps))).2
      refine ⟨t, ?_⟩
      rw [← ht]
      have g3' : y.fw.w = runOpsC (s.ctx n) (s.cb n) (.init allOk :: Spec.CanNode.callsOf lc rs) (powerUp ps) := g3
      rw [g3', g1, ← List.cons_append, runOpsC_split]
      rfl
    · rintro m rfl
      have : y.heard = rs.filterMap id := g2
      rw [this]
      exact CanNode.callsOf_heard lc rs m h1 hop

/-- The AVR example announces its nickname, confirms two extended page writes which configure the decision matrix, and confirms that an event switches
the lamp on: four frames, each of which has its reason. -/
example : (match Avr.Sys.exHist (Avr.Sys.exMs false ++ Avr.Sys.exSet ++ [.rx CanConfig.exNews, .step] ++ List.replicate 14 .tx) with
    | .ok y => decide (y.fw.life = 0 ∧ y.x.2.wire.map (·.id) = [2 * 2 ^ 8 + 5, 3 * 2 ^ 26 + 39 * 2 ^ 8 + 5, 3 * 2 ^ 26 + 39 * 2 ^ 8 + 5, 3 * 2 ^ 26 + 20 * 2 ^ 16 + 3 * 2 ^ 8 + 5])
    | _ => false) = true := by decide +kernel

end Vscp.Speech
