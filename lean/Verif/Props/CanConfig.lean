/-
C110: a node on the CAN bus is configured by the frames on the bus, and acts as configured.
-/
import Verif.Props.CanNode
import Verif.Props.Settings
import Verif.Spec.CanConfig

namespace Vscp.CanConfig
open Vscp.Safety Vscp.Spec Vscp.Spec.CanNode Vscp.Spec.CanDrv Vscp.CanDrvProps Vscp.Driver Vscp.Driver.CanNode
open Vscp.Driver.CanDrv (BusFrame)

theorem Stays.head {c : Ctx} {cb : Callbacks} {a : Around} {nick : U8} {mv : Move} {l : List Move} {n n1 : Node} (h : Stays c cb a nick (mv :: l) n)
    (e : move c cb a n mv = .ok n1) : Stays c cb a nick l n1 := by
  intro l1 l2 n2 hl hr
  refine h (mv :: l1) l2 n2 (by rw [hl]; rfl) ?_
  show (match move c cb a n mv with | .ok n => run c cb a l1 n | .ub => .ub | .impossible => .impossible) = .ok n2
  rw [e]
  exact hr

/-- What an event which was heard makes of the settings. -/
def heardAs (c : Cfg) (nick : U8) (s : Settings) (m : Msg) : Settings := if m.cls = 0 then s.event c nick m else s

theorem run_settings {c : Ctx} (hc : GoodCfg c) (hp : Sett.Plain c.toCfg) {cb : Callbacks} (hcb : CbOk cb) (hlb : c.loopback = false) (hpn : c.protoNotify = false) (a : Around)
    (nick : U8) : ∀ (l : List Move) {n n' : Node}, Good c n → (∀ mv ∈ l, Spec.CanNode.Ok mv) → Stays c cb a nick l n → run c cb a l n = .ok n' →
      ∃ hs t, n'.heard = n.heard ++ hs ∧ n'.w.out = n.w.out ++ t ∧ Good c n' ∧
        (.portRestore ∉ t → settings c.toCfg n'.w = hs.foldl (heardAs c.toCfg nick) (settings c.toCfg n.w))
  | [], n, n', h, _, _, e => by cases e; exact ⟨[], [], by simp, by simp, h, fun _ => rfl⟩
  | mv :: l, n, n', h, hl, hs, e => by
    have hl' : ∀ mv ∈ l, Spec.CanNode.Ok mv := fun mv h => hl mv (List.mem_cons_of_mem _ h)
    have hmv := hl mv (List.mem_cons_self ..)
    have hst := hs [] (mv :: l) n rfl rfl
    cases mv with
    | cycle =>
      rcases cycle_good hc hcb a h with e' | ⟨n1, m, e1, e2, e3, e4, -, -, hop, -⟩
      · simp only [run, e'] at e; cases e
      · have hs1 := Stays.head hs e1
        simp only [run, e1] at e
        obtain ⟨hs', t', r1, r2, rg, r3⟩ := run_settings hc hp hcb hlb hpn a nick l e2 hl' hs1 e
        obtain ⟨L, -, hst1⟩ := stepOpC_steps (c := c) hcb hop h.lb
        obtain ⟨t1, ht1, -⟩ := hst1.outs
        have hr : (Transport.readMessage c m n.w).1 = m := by
          unfold Transport.readMessage
          rw [if_neg (by rw [hlb]; decide)]
          rfl
        refine ⟨m.toList ++ hs', t1 ++ t', by rw [r1, e4, List.append_assoc], by rw [r2, e3, ht1, List.append_assoc], rg, fun hn => ?_⟩
        rw [r3 fun hx => hn (List.mem_append_right _ hx), e3, Sett.opC_settings hcb hpn hp (.process m) n.w ?_]
        · have hf : ¬ factoryReset n.w (stepOpC c cb (.process m) n.w).2 := by
            rw [Wear.factory_of ht1]; exact fun hx => hn (List.mem_append_left _ hx)
          unfold Settings.next
          rw [if_neg hf]
          unfold Settings.after
          dsimp only
          rw [hr]
          cases m with
          | none => rfl
          | some m =>
            have ht : Takes c (some m) n.w m := ⟨hst.1, hr, fun h => by rw [hpn] at h; exact absurd h (by decide)⟩
            have : (if Takes c (some m) n.w m ∧ m.cls = 0 then (settings c.toCfg n.w).event c.toCfg n.w.v.nick m else settings c.toCfg n.w) =
                heardAs c.toCfg nick (settings c.toCfg n.w) m := by
              unfold heardAs
              rw [hst.2]
              by_cases h0 : m.cls = 0
              · rw [if_pos ⟨ht, h0⟩, if_pos h0]
              · rw [if_neg fun h => h0 h.2, if_neg h0]
            dsimp only
            rw [this]
            rfl
        · rintro rx m' e ht
          cases e
          rw [ht.2.1] at hr
          subst hr
          exact hop
    | call op =>
      rcases callFw_good hc hcb a (Ok.op hmv) h with e' | ⟨n1, e1, e2, e3, e4, -⟩
      · simp only [run, move, e'] at e; cases e
      · have hs1 := Stays.head hs (n1 := n1) (show move c cb a n (.call op) = .ok n1 from e1)
        simp only [run, move, e1] at e
        obtain ⟨hs', t', r1, r2, rg, r3⟩ := run_settings hc hp hcb hlb hpn a nick l e2 hl' hs1 e
        obtain ⟨L, -, hst1⟩ := stepOpC_steps (c := c) hcb (Ok.op hmv) h.lb
        obtain ⟨t1, ht1, -⟩ := hst1.outs
        refine ⟨hs', t1 ++ t', by rw [r1, e4], by rw [r2, e3, ht1, List.append_assoc], rg, fun hn => ?_⟩
        have hnp : ∀ rx, op ≠ .process rx := by
          rintro rx rfl
          rcases hmv with h | ⟨_, h⟩
          · exact h
          · cases h
        rw [r3 fun hx => hn (List.mem_append_right _ hx), e3, Sett.opC_settings hcb hpn hp op n.w fun rx _ e _ => absurd e (hnp rx)]
        have hf : ¬ factoryReset n.w (stepOpC c cb op n.w).2 := by
          rw [Wear.factory_of ht1]; exact fun hx => hn (List.mem_append_left _ hx)
        unfold Settings.next
        rw [if_neg hf]
        cases op with
        | process rx => exact absurd rfl (hnp rx)
        | _ => rfl
    | rx b =>
      obtain ⟨hs', t', r1, r2, rg, r3⟩ := run_settings hc hp hcb hlb hpn a nick l (rx_good h b hmv).1 hl' (Stays.head hs rfl) e
      exact ⟨hs', t', r1, r2, rg, r3⟩
    | tx =>
      obtain ⟨hs', t', r1, r2, rg, r3⟩ := run_settings hc hp hcb hlb hpn a nick l (tx_good h) hl' (Stays.head hs rfl) e
      exact ⟨hs', t', r1, r2, rg, r3⟩

/-- Class and type in the identifier. -/
theorem carried {b : BusFrame} {m : Msg} (h : Carries b m) : b.id / 2 ^ 16 % 512 = m.cls.toNat ∧ b.id / 2 ^ 8 % 256 = m.typ.toNat := by
  obtain ⟨h1, h2, h3, -, -⟩ := h
  have ht := m.typ.isLt
  have ho := m.oAddr.isLt
  have hh : m.hard.toNat ≤ 1 := by cases m.hard <;> decide
  unfold Drv.canId at h1
  omega

/-- The event a data frame carries makes the same of the settings as the frame. -/
theorem frame_event (c : Cfg) (nick : U8) (s : Settings) {b : BusFrame} {m : Msg} (h : Carries b m) (hr : b.rtr = false) : s.frame c nick b = heardAs c nick s m := by
  obtain ⟨e1, e2⟩ := carried h
  have h5 := h.2.2.2.2 hr
  unfold Settings.frame heardAs Settings.event
  rw [e1, e2, ← h5]
  by_cases h0 : m.cls = 0
  · rw [if_pos h0, if_pos (show m.cls.toNat = 0 by rw [h0]; rfl)]
    cases payload m <;> rfl
  · rw [if_neg h0, if_neg (show ¬m.cls.toNat = 0 from fun h => h0 (BitVec.eq_of_toNat_eq h))]

theorem frames_events (c : Cfg) (nick : U8) : ∀ (fs : List BusFrame) (hs : List Msg) (s : Settings), fs.length = hs.length → (∀ b ∈ fs, b.rtr = false) →
    (∀ (i : Nat) (h : i < fs.length) (h' : i < hs.length), Carries fs[i] hs[i]) → hs.foldl (heardAs c nick) s = fs.foldl (Settings.frame c nick) s
  | [], [], _, _, _, _ => rfl
  | [], _ :: _, _, h, _, _ => by cases h
  | _ :: _, [], _, h, _, _ => by cases h
  | b :: fs, m :: hs, s, h, hr, hcar => by
    rw [List.foldl_cons, List.foldl_cons, frame_event c nick s (b := b) (m := m) (hcar 0 (by simp) (by simp)) (hr b (by simp))]
    exact frames_events c nick fs hs _ (by simpa using h) (fun b hb => hr b (by simp [hb])) fun i h h' => hcar (i + 1) (by simpa using h) (by simpa using h')

theorem all_heard {c : Ctx} {n : Node} (h : Good c n) (hu : n.x.2.stored.length = n.heard.length) : n.x.2.stored = n.x.2.got.map onBus := by
  rcases h.sends.inv.mob0 with ⟨-, e⟩ | ⟨_, b, -, -, -, e⟩
  · simpa using e
  · have := congrArg List.length e
    have hlen := h.len
    simp at this
    omega

/-- The events heard are those the frames carry. -/
theorem heard_offered {c : Ctx} (hc : GoodCfg c) {cb : Callbacks} (hcb : CbOk cb) (a : Around) {n n' : Node} (hg : Good c n) (hg' : Good c n') (l' : List Move)
    (hl' : ∀ mv ∈ l', Spec.CanNode.Ok mv) (hn' : run c cb a l' n = .ok n') (hpaced : Paced false l') (hu : n.x.2.stored.length = n.heard.length)
    (hu' : n'.x.2.stored.length = n'.heard.length) {hs : List Msg} (h1 : n'.heard = n.heard ++ hs) :
    (offered l').length = hs.length ∧ ∀ (i : Nat) (h : i < (offered l').length) (h' : i < hs.length), Carries (offered l')[i] hs[i] := by
  have hst := run_paced hc hcb a l' false hg hl' hpaced (fun _ => all_heard hg hu) hn'
  have hall := all_heard hg' hu'
  rw [hst] at hu' hall
  have hlen : (offered l').length = hs.length := by
    rw [h1] at hu'
    simp only [List.length_append] at hu'
    omega
  refine ⟨hlen, fun i hi hi' => ?_⟩
  have hi2 : n.heard.length + i < n'.heard.length := by rw [h1]; simp; omega
  have := hg'.heard (n.heard.length + i) hi2
  have e1 : n'.heard[n.heard.length + i] = hs[i] := by
    simp only [h1]
    rw [List.getElem_append_right (by omega)]
    simp
  have e2 : onBus (n'.x.2.got[n.heard.length + i]'(by have := hg'.len; omega)) = (offered l')[i] := by
    have e3 : (n.x.2.stored ++ offered l')[n.heard.length + i]'(by simp; omega) = onBus (n'.x.2.got[n.heard.length + i]'(by have := hg'.len; omega)) := by
      simp only [hall]
      simp
    rw [← e3, List.getElem_append_right (by omega)]
    simp [hu]
  rw [e1, e2] at this
  exact this

section
variable {c : Ctx} (hc : GoodCfg c) (hpl : Sett.Plain c.toCfg) {cb : Callbacks} (hcb : CbOk cb) (hlb : c.loopback = false) (hpn : c.protoNotify = false) (a : Around) (ok : Tmr → Bool)
  (ps : Nat → U8) (s : CanDrv.State) (l : List Move) (hl : ∀ mv ∈ l, Spec.CanNode.Ok mv) {n : Node} (hn : run c cb a l (boot c cb ok ps s) = .ok n)
  (nick : U8) (l' : List Move) (hl' : ∀ mv ∈ l', Spec.CanNode.Ok mv) {n' : Node} (hn' : run c cb a l' n = .ok n') (hstay : Stays c cb a nick l' n)
include hc hpl hcb hlb hpn hl hn hl' hn' hstay

/-- C110: at any point of any history of a node on the bus: while it is active and keeps its nickname, and the factory settings are not restored, its settings are what the events it hears
make of them, one after the other. -/
theorem C110_heard (hr : ¬ factoryReset n.w n'.w) :
    settings c.toCfg n'.w = (n'.heard.drop n.heard.length).foldl (fun s m => if m.cls = 0 then s.event c.toCfg nick m else s) (settings c.toCfg n.w) := by
  obtain ⟨hs, t, h1, h2, -, h3⟩ := run_settings hc hpl hcb hlb hpn a nick l' (node_good hc hcb a ok ps s l hl hn) hl' hstay hn'
  rw [h1, List.drop_left]
  exact h3 fun h => hr (by rw [Wear.factory_of h2]; exact h)

/-- C110: if the framework runs at least once between two frames, and all frames are delivered before and after, then the settings are what the frames on the bus make of them. -/
theorem C110_frames (hr : ¬ factoryReset n.w n'.w) (hpaced : Paced false l') (hu : n.x.2.stored.length = n.heard.length) (hu' : n'.x.2.stored.length = n'.heard.length)
    (hdata : ∀ b ∈ offered l', b.rtr = false) :
    settings c.toCfg n'.w = (offered l').foldl (Settings.frame c.toCfg nick) (settings c.toCfg n.w) := by
  have hg := node_good hc hcb a ok ps s l hl hn
  obtain ⟨hs, t, h1, h2, hg', h3⟩ := run_settings hc hpl hcb hlb hpn a nick l' hg hl' hstay hn'
  rw [h3 fun h => hr (by rw [Wear.factory_of h2]; exact h)]
  obtain ⟨hlen, hcar⟩ := heard_offered hc hcb a hg hg' l' hl' hn' hpaced hu hu' h1
  exact frames_events c.toCfg nick _ _ _ hlen hdata hcar

end

/-- A frame comes to a node which has delivered all frames; in the next cycle its framework gets the event of the frame. -/
theorem delivered {c : Ctx} (hc : GoodCfg c) {cb : Callbacks} (hcb : CbOk cb) (a : Around) {n n' : Node} (h : Good c n) (hu : n.x.2.stored.length = n.heard.length)
    {b : BusFrame} (hb : Valid b) (e : run c cb a [.rx b, .cycle] n = .ok n') :
    ∃ m, Carries b m ∧ m.size.toNat ≤ 8 ∧ n'.w = (stepOpC c cb (.process (some m)) n.w).2 ∧ n'.heard = n.heard ++ [m] := by
  obtain ⟨g1, g2⟩ := rx_good h b hb
  have hst := all_heard h hu
  have hrx := g2.2 hst
  have e' : run c cb a [.cycle] { n with x := ((CanDrv.rx b n.x.1).1, if (CanDrv.rx b n.x.1).2 then { n.x.2 with stored := n.x.2.stored ++ [b] } else n.x.2) } = .ok n' := e
  rcases cycle_good hc hcb a g1 with e1 | ⟨n1, m, e1, e2, e3, e4, e5, e6, hop, -⟩
  · simp only [run, e1] at e'; cases e'
  · simp only [run, e1] at e'
    cases e'
    simp only [hrx, if_true] at e5
    have hlen := e2.len
    have hl1 : n'.x.2.got.length = n.x.2.got.length + 1 := by
      have := congrArg List.length (e6.symm.trans e5)
      simp at this
      rw [this, hst]
      simp
    dsimp only at e3 e4
    cases m with
    | none =>
      exfalso
      have := h.len
      rw [e4] at hlen
      simp at hlen
      omega
    | some m =>
      refine ⟨m, ?_, hop, e3, e4⟩
      have hi : n.heard.length < n'.heard.length := by rw [e4]; simp
      have hcar := e2.heard n.heard.length hi
      have r1 : n'.heard[n.heard.length] = m := by simp [e4]
      have r2 : onBus (n'.x.2.got[n.heard.length]'(by omega)) = b := by
        have : (n.x.2.stored ++ [b])[n.heard.length]'(by simp; omega) = onBus (n'.x.2.got[n.heard.length]'(by omega)) := by
          have q := e6.symm.trans e5
          simp only [← q]
          simp
        rw [← this]
        simp [← hu]
      rw [r1, r2] at hcar
      exact hcar

theorem avrPlain (sr : Avr.Surr) (k : Nat) : Sett.Plain (sr.ctx k).toCfg :=
  ⟨fun _ => ⟨⟨rfl, rfl, (by decide : (2 : Nat) ≤ 255)⟩, rfl, (by decide : (2 : Nat) < 32), (by decide : 1 + 0 < 255)⟩, fun h => (by cases h)⟩

/-! ### The AVR example stays a node -/

/-- The nickname changes only with its own steps and with the factory settings. -/
theorem nick_kept {c : Ctx} {A : List Act} {w w' : W} (hs : Steps c True A w w') (hA : A.all (fun x => x == .restore || !x.touches .nick) = true) :
    ∃ t, w'.out = w.out ++ t ∧ (.portRestore ∉ t → w'.v.nick = w.v.nick) := by
  refine hs.rel (R := fun w w' => ∃ t, w'.out = w.out ++ t ∧ (.portRestore ∉ t → w'.v.nick = w.v.nick)) (fun w => ⟨[], by simp, fun _ => rfl⟩) ?_ ?_
  · rintro w1 w2 w3 ⟨t, h1, h2⟩ ⟨t', h1', h2'⟩
    exact ⟨t ++ t', by rw [h1', h1, List.append_assoc], fun h => (h2' fun x => h (List.mem_append_right _ x)).trans (h2 fun x => h (List.mem_append_left _ x))⟩
  · intro x hx w w' hst
    by_cases hr : x = .restore
    · subst hr
      have hst' : w' = (Core.restoreFactoryDefaultSettings c w).2 := hst
      exact ⟨traceOf (Restore.all c) ++ [.appRestore, .portRestore], by rw [hst', restore_run], fun h => absurd (by simp) h⟩
    · obtain ⟨t, h1, -⟩ := hst.outs
      have := List.all_eq_true.mp hA x hx
      rw [Bool.or_eq_true] at this
      refine ⟨t, h1, fun _ => hst.same .nick (by simpa using this.resolve_left fun h => hr (by simpa using h))⟩

/-- An event which neither asks for another nickname nor makes the node leave its active state, whatever node it is for. -/
def Calm (m : Msg) : Prop := m.cls ≠ 0 ∨ m.typ.toNat ∉ [1, 3, 6, 8, 12, 23]

theorem typeActs_nick (typ : Nat) (h : typ ∉ [1, 3, 6, 8, 12, 23]) : (typeActs typ).all (fun x => x == .restore || !x.touches .nick) = true := by
  simp only [List.mem_cons, List.not_mem_nil, or_false, not_or] at h
  unfold typeActs
  split <;> first | rfl | omega

theorem op_stays (sr : Avr.Surr) (k : Nat) {op : Op} (hop : (∃ ms, op = .tick ms) ∨ ∃ rx, op = .process rx ∧ ∀ m, rx = some m → m.size.toNat ≤ 8 ∧ Calm m) {w : W}
    (ha : w.v.st = .active) : ∃ t, (stepOpC (sr.ctx k) (sr.cb k) op w).2.out = w.out ++ t ∧ (stepOpC (sr.ctx k) (sr.cb k) op w).2.v.st = .active ∧
      (.portRestore ∉ t → (stepOpC (sr.ctx k) (sr.cb k) op w).2.v.nick = w.v.nick) := by
  rcases hop with ⟨ms, rfl⟩ | ⟨rx, rfl, hrx⟩
  · exact ⟨[], by simp; rfl, ha, fun _ => rfl⟩
  · cases rx with
    | none =>
      have e : (stepOpC (sr.ctx k) (sr.cb k) (.process none) w).2 = (Core.process (sr.ctx k) none w).2 := AvrProps.calm_op (sr.stack k) (.process none) w fun rx h => .inr (by cases h; rfl)
      rw [e]
      obtain ⟨w1, t1, ho1, -, hs1, htail⟩ := other_cycle (c := sr.ctx k) (rx := none) ha (fun m _ h => by have := h.2.1; cases this)
      obtain ⟨t2, h2, -⟩ := htail.steps.outs
      have e1 := hs1 .st (by decide)
      have e2 := hs1 .nick (by decide)
      have e3 := htail.steps.same .st (by decide)
      have e4 := htail.steps.same .nick (by decide)
      simp only [Comp.same] at e1 e2 e3 e4
      exact ⟨t1 ++ t2, by rw [h2, ho1, List.append_assoc], by rw [e3, e1, ha], fun _ => by rw [e4, e2]⟩
    | some m =>
      obtain ⟨h8, hcalm⟩ := hrx m rfl
      obtain ⟨tp, ub, t, h1, -⟩ := AvrProps.cycle (sz := sr.sz) (e := sr.env k) (sr.stack k) m w ha
      have hs : Steps (Avr.ctx sr.sz (sr.env k)) True [.customHb, .tx, .tm .heartbeat, .alarm, .appRead, .ext]
          { AvrProps.handled (Avr.ctx sr.sz (sr.env k)) m w with tp := tp, ub := ub, out := (AvrProps.handled (Avr.ctx sr.sz (sr.env k)) m w).out ++ t }
          (stepOpC (sr.ctx k) (sr.cb k) (.process (some m)) w).2 := by
        have := Steps.trans (Foot.mono (B := [.customHb, .tx, .tm .heartbeat, .alarm, .appRead, .ext]) (bad := True) (.activeHeartbeat (c := Avr.ctx sr.sz (sr.env k))) (by decide)
            { AvrProps.handled (Avr.ctx sr.sz (sr.env k)) m w with tp := tp, ub := ub, out := (AvrProps.handled (Avr.ctx sr.sz (sr.env k)) m w).out ++ t })
          (Foot.mono (bad := True) (.activeExtRead (c := Avr.ctx sr.sz (sr.env k))) (by decide) _)
        rw [← h1] at this
        exact this
      obtain ⟨t2, h2, -⟩ := hs.outs
      have e3 := hs.same .st (by decide)
      have e4 := hs.same .nick (by decide)
      simp only [Comp.same] at e3 e4
      suffices ∃ t0, (AvrProps.handled (Avr.ctx sr.sz (sr.env k)) m w).out = w.out ++ t0 ∧ (AvrProps.handled (Avr.ctx sr.sz (sr.env k)) m w).v.st = .active ∧
          (.portRestore ∉ t0 → (AvrProps.handled (Avr.ctx sr.sz (sr.env k)) m w).v.nick = w.v.nick) by
        obtain ⟨t0, q1, q2, q3⟩ := this
        refine ⟨t0 ++ t ++ t2, by rw [h2]; simp only [q1, List.append_assoc], e3.trans q2, fun hn => e4.trans (q3 fun h => hn ?_)⟩
        simp [h]
      have es := pre_same (sr.ctx k) (some m) w .st (by decide)
      have en := pre_same (sr.ctx k) (some m) w .nick (by decide)
      simp only [Comp.same] at es en
      unfold AvrProps.handled
      by_cases hc : m.cls = 0
      · rw [if_pos hc]
        have ht : m.typ.toNat ∉ [1, 3, 6, 8, 12, 23] := hcalm.resolve_left fun h => h hc
        have q := handler_same (c := sr.ctx k) (m := m) (preProcess (sr.ctx k) (some m) w).2 .st [1, 3, 8, 12, 23] (by decide) fun h => ht (by
          simp only [List.mem_cons, List.not_mem_nil, or_false] at h ⊢
          omega)
        obtain ⟨t0, r1, r2⟩ := nick_kept (Foot.handlerType (c := sr.ctx k) (m := m) (preProcess (sr.ctx k) (some m) w).2) (typeActs_nick _ ht)
        rw [pre_out] at r1
        exact ⟨t0, r1, q.trans (es.trans ha), fun h => (r2 h).trans en⟩
      · rw [if_neg hc]
        refine ⟨[.event m], ?_, es.trans ha, fun _ => en⟩
        show (preProcess (sr.ctx k) (some m) w).2.out ++ _ = _
        rw [pre_out]

theorem run_stays (sr : Avr.Surr) (k : Nat) (a : Around) : ∀ (l : List Move) {n n' : Node}, Good (sr.ctx k) n → (∀ mv ∈ l, Spec.CanNode.Ok mv) →
    (∀ op, .call op ∈ l → ∃ ms, op = .tick ms) → run (sr.ctx k) (sr.cb k) a l n = .ok n' → ∃ hs t, n'.heard = n.heard ++ hs ∧ n'.w.out = n.w.out ++ t ∧
      Good (sr.ctx k) n' ∧ (n.w.v.st = .active → (∀ m ∈ hs, Calm m) → n'.w.v.st = .active ∧ (.portRestore ∉ t → n'.w.v.nick = n.w.v.nick))
  | [], n, n', h, _, _, e => by cases e; exact ⟨[], [], by simp, by simp, h, fun h _ => ⟨h, fun _ => rfl⟩⟩
  | mv :: l, n, n', h, hl, ht, e => by
    have hl' : ∀ mv ∈ l, Spec.CanNode.Ok mv := fun mv h => hl mv (List.mem_cons_of_mem _ h)
    have ht' : ∀ op, .call op ∈ l → ∃ ms, op = .tick ms := fun op h => ht op (List.mem_cons_of_mem _ h)
    have hmv := hl mv (List.mem_cons_self ..)
    cases mv with
    | cycle =>
      rcases cycle_good (c := sr.ctx k) (cb := sr.cb k) (AvrProps.good _ _) (AvrProps.cb_ok _) a h with e' | ⟨n1, m, e1, e2, e3, e4, -, -, hop, -⟩
      · simp only [run, e'] at e; cases e
      · simp only [run, e1] at e
        obtain ⟨hs, t, r1, r2, r3, r4⟩ := run_stays sr k a l e2 hl' ht' e
        obtain ⟨L, -, hst1⟩ := stepOpC_steps (c := sr.ctx k) (AvrProps.cb_ok _) hop h.lb
        obtain ⟨t1, ht1, -⟩ := hst1.outs
        refine ⟨m.toList ++ hs, t1 ++ t, by rw [r1, e4, List.append_assoc], by rw [r2, e3, ht1, List.append_assoc], r3, fun ha hc => ?_⟩
        obtain ⟨t1', q1, q2, q3⟩ := op_stays sr k (op := .process m) (.inr ⟨m, rfl, fun m' e => by subst e; exact ⟨hop, hc m' (by simp)⟩⟩) ha
        have : t1' = t1 := List.append_cancel_left (q1.symm.trans ht1)
        subst this
        rw [e3] at r4
        obtain ⟨z1, z2⟩ := r4 q2 fun m hm => hc m (List.mem_append_right _ hm)
        exact ⟨z1, fun hn => (z2 fun h => hn (List.mem_append_right _ h)).trans (q3 fun h => hn (List.mem_append_left _ h))⟩
    | call op =>
      rcases callFw_good (c := sr.ctx k) (cb := sr.cb k) (AvrProps.good _ _) (AvrProps.cb_ok _) a (Ok.op hmv) h with e' | ⟨n1, e1, e2, e3, e4, -⟩
      · simp only [run, move, e'] at e; cases e
      · simp only [run, move, e1] at e
        obtain ⟨hs, t, r1, r2, r3, r4⟩ := run_stays sr k a l e2 hl' ht' e
        obtain ⟨L, -, hst1⟩ := stepOpC_steps (c := sr.ctx k) (AvrProps.cb_ok _) (Ok.op hmv) h.lb
        obtain ⟨t1, ht1, -⟩ := hst1.outs
        refine ⟨hs, t1 ++ t, by rw [r1, e4], by rw [r2, e3, ht1, List.append_assoc], r3, fun ha hc => ?_⟩
        obtain ⟨t1', q1, q2, q3⟩ := op_stays sr k (op := op) (.inl (ht op (List.mem_cons_self ..))) ha
        have : t1' = t1 := List.append_cancel_left (q1.symm.trans ht1)
        subst this
        rw [e3] at r4
        obtain ⟨z1, z2⟩ := r4 q2 hc
        exact ⟨z1, fun hn => (z2 fun h => hn (List.mem_append_right _ h)).trans (q3 fun h => hn (List.mem_append_left _ h))⟩
    | rx b =>
      obtain ⟨hs, t, r⟩ := run_stays sr k a l (rx_good h b hmv).1 hl' ht' e
      exact ⟨hs, t, r⟩
    | tx =>
      obtain ⟨hs, t, r⟩ := run_stays sr k a l (tx_good h) hl' ht' e
      exact ⟨hs, t, r⟩

theorem run_append (c : Ctx) (cb : Callbacks) (a : Around) : ∀ (l1 l2 : List Move) (n : Node), run c cb a (l1 ++ l2) n =
    match run c cb a l1 n with | .ok n => run c cb a l2 n | .ub => .ub | .impossible => .impossible
  | [], _, _ => rfl
  | mv :: l1, l2, n => by
    show (match move c cb a n mv with | .ok n => run c cb a (l1 ++ l2) n | .ub => .ub | .impossible => .impossible) =
      match (match move c cb a n mv with | .ok n => run c cb a l1 n | .ub => .ub | .impossible => .impossible) with
        | .ok n => run c cb a l2 n | .ub => .ub | .impossible => .impossible
    cases move c cb a n mv with
    | ok n => exact run_append c cb a l1 l2 n
    | ub => rfl
    | impossible => rfl

/-- C110: the AVR example which hears calm events only stays active and keeps its nickname, unless the factory settings are restored. -/
theorem C110_stays (sr : Avr.Surr) (k : Nat) (a : Around) {l : List Move} {n n' : Node} (hg : Good (sr.ctx k) n) (hl : ∀ mv ∈ l, Spec.CanNode.Ok mv)
    (ht : ∀ op, .call op ∈ l → ∃ ms, op = .tick ms) (e : run (sr.ctx k) (sr.cb k) a l n = .ok n') (ha : n.w.v.st = .active) (hr : ¬ factoryReset n.w n'.w)
    (hc : ∀ m ∈ n'.heard.drop n.heard.length, Calm m) : Stays (sr.ctx k) (sr.cb k) a n.w.v.nick l n := by
  rintro l1 l2 n1 rfl h1
  rw [run_append, h1] at e
  obtain ⟨hs, t, r1, r2, r3, r4⟩ := run_stays sr k a l1 hg (fun mv h => hl mv (List.mem_append_left _ h)) (fun op h => ht op (List.mem_append_left _ h)) h1
  obtain ⟨hs', t', r1', r2', -, -⟩ := run_stays sr k a l2 r3 (fun mv h => hl mv (List.mem_append_right _ h)) (fun op h => ht op (List.mem_append_right _ h)) e
  rw [r1', r1, List.append_assoc, List.drop_left] at hc
  obtain ⟨z1, z2⟩ := r4 ha fun m hm => hc m (List.mem_append_left _ hm)
  refine ⟨z1, z2 fun h => hr ?_⟩
  rw [Wear.factory_of (r2'.trans (by rw [r2, List.append_assoc]))]
  exact List.mem_append_left _ h

/-- The AVR example stays active if the frames on the bus do not tell it otherwise. -/
theorem avr_stays (sr : Avr.Surr) (k : Nat) (a : Around) {n : Node} (hg : Good (sr.ctx k) n) (ha : n.w.v.st = .active)
    (hu : n.x.2.stored.length = n.heard.length) (l' : List Move) (hl' : ∀ mv ∈ l', Spec.CanNode.Ok mv) (ht' : ∀ op, .call op ∈ l' → ∃ ms, op = .tick ms) (hpaced : Paced false l')
    (hdata : ∀ b ∈ offered l', b.rtr = false ∧ (b.id / 2 ^ 16 % 512 = 0 → b.id / 2 ^ 8 % 256 ∉ [1, 3, 6, 8, 12, 23])) {n' : Node}
    (hn' : run (sr.ctx k) (sr.cb k) a l' n = .ok n') (hr : ¬ factoryReset n.w n'.w)
    (hu' : n'.x.2.stored.length = n'.heard.length) : Stays (sr.ctx k) (sr.cb k) a n.w.v.nick l' n := by
  obtain ⟨hs, -, h1, -, hg', -⟩ := run_stays sr k a l' hg hl' ht' hn'
  obtain ⟨hlen, hcar⟩ := heard_offered (AvrProps.good _ _) (AvrProps.cb_ok _) a hg hg' l' hl' hn' hpaced hu hu' h1
  refine C110_stays sr k a hg hl' ht' hn' ha hr ?_
  rw [h1, List.drop_left]
  intro m hm
  obtain ⟨i, hi, rfl⟩ := List.mem_iff_getElem.mp hm
  obtain ⟨q1, q2⟩ := carried (hcar i (by omega) hi)
  have := (hdata _ (List.getElem_mem (by omega : i < (offered l').length))).2
  rw [q1, q2] at this
  by_cases h0 : hs[i].cls = 0
  · exact .inr (this (by rw [h0]; rfl))
  · exact .inl h0

open Vscp.Spec.Avr (Reacts) in
/-- C110: the AVR example on the bus: what frames have written to its decision matrix is what it does: the next frame which carries an event of another class than that of the protocol
makes it execute the rows of the matrix written which fire, in their order, and send the events which belong to them. -/
theorem C110_avr (sr : Avr.Surr) (k : Nat) (a : Around) (ps : Nat → U8) (s : CanDrv.State) (l : List Move) (hl : ∀ mv ∈ l, Spec.CanNode.Ok mv) {n : Node}
    (hn : run (sr.ctx k) (sr.cb k) a l (boot (sr.ctx k) (sr.cb k) allOk ps s) = .ok n) (ha : n.w.v.st = .active)
    (hu : n.x.2.stored.length = n.heard.length) (l' : List Move) (hl' : ∀ mv ∈ l', Spec.CanNode.Ok mv) (ht' : ∀ op, .call op ∈ l' → ∃ ms, op = .tick ms) (hpaced : Paced false l')
    (hdata : ∀ b ∈ offered l', b.rtr = false ∧ (b.id / 2 ^ 16 % 512 = 0 → b.id / 2 ^ 8 % 256 ∉ [1, 3, 6, 8, 12, 23])) {n' : Node}
    (hn' : run (sr.ctx k) (sr.cb k) a l' n = .ok n') (hr : ¬ factoryReset n.w n'.w)
    (hu' : n'.x.2.stored.length = n'.heard.length) (b : BusFrame) (hb : Valid b) (hcls : b.id / 2 ^ 16 % 512 ≠ 0) {n'' : Node}
    (hn'' : run (sr.ctx k) (sr.cb k) a [.rx b, .cycle] n' = .ok n'') :
    let cfg := Avr.cfg sr.sz
    let dm := ((offered l').foldl (Settings.frame cfg n.w.v.nick) (settings cfg n.w)).matrix cfg (n'.w.ps (Ps.addrZone cfg)) (n'.w.ps (Ps.addrSubZone cfg))
    ∃ m t post, Carries b m ∧ n''.w.out = n'.w.out ++ ([.event m] ++ t ++ post) ∧ Reacts n''.w.v.nick (Dm.calls dm m m.data.toList) t ∧ Dm.actions post = [] := by
  intro cfg dm
  have hpl : Sett.Plain (sr.ctx k).toCfg := avrPlain sr k
  have hg := node_good (AvrProps.good _ _) (AvrProps.cb_ok _) a allOk ps s l hl hn
  obtain ⟨hs, -, h1, -, hg', -⟩ := run_stays sr k a l' hg hl' ht' hn'
  have hstay := avr_stays sr k a hg ha hu l' hl' ht' hpaced hdata hn' hr hu'
  have hset := C110_frames (AvrProps.good _ _) hpl (AvrProps.cb_ok _) rfl rfl a allOk ps s l hl hn n.w.v.nick l' hl' hn' hstay hr hpaced hu hu' fun b hb => (hdata b hb).1
  obtain ⟨m, hcar, h8, hw, -⟩ := delivered (AvrProps.good _ _) (AvrProps.cb_ok _) a hg' hu' hb hn''
  have hst := hstay l' [] n' (by simp) hn'
  have hm : m.cls ≠ 0 := by
    intro h
    exact hcls ((carried hcar).1.trans (by rw [h]; rfl))
  obtain ⟨pre, t, post, h1, h2, h3, -, h5, -, -⟩ := AvrProps.C88_actions sr ⟨[], k, n'.w, ⟨false, 0⟩, false⟩ m hst.1 h8
  rw [h3 hm] at h1 h2
  have e : (Avr.call sr (.process (some m)) ⟨[], k, n'.w, ⟨false, 0⟩, false⟩).w = n''.w := by rw [hw]; rfl
  rw [e] at h1 h2
  refine ⟨m, t, post, hcar, h1, ?_, h5⟩
  have e2 := Sett.calls_settings hpl (show (sr.ctx k).toCfg.dm = true from rfl) n'.w m m.data.toList
  rw [hset] at e2
  exact e2 ▸ h2

/-! ### Concrete case -/

/-- The first row of the matrix is written in two frames (events of class 40 and type 7: action 1, the LED on); other events in between. -/
def exConfig : List Move := [.rx (protocol 3 false 38 1 [5, 0, 1, 0, 0, 0x80, 0xFF, 40]), .cycle, .rx exEvent, .call (.tick 10), .cycle, .tx, .tx,
  .rx (protocol 3 false 38 1 [5, 0, 1, 4, 0xFF, 7, 1, 9]), .cycle]

/-- An event of class 40 and type 7 from node 9. -/
def exNews : BusFrame := ⟨true, false, 40 * 2 ^ 16 + 7 * 2 ^ 8 + 9, 0, []⟩

-- The hypotheses of `C110_avr` are met, and the node sends CLASS1.INFORMATION On (class 20, type 3) for the event after, but not before it is configured.
example : (∀ mv ∈ [Move.cycle] ++ exConfig, Spec.CanNode.Ok mv) ∧ Paced false exConfig ∧ Valid exNews ∧ exNews.id / 2 ^ 16 % 512 ≠ 0 ∧
    (∀ b ∈ offered exConfig, b.rtr = false ∧ (b.id / 2 ^ 16 % 512 = 0 → b.id / 2 ^ 8 % 256 ∉ [1, 3, 6, 8, 12, 23])) := by
  refine ⟨?_, by simp [exConfig, Paced], by simp [Valid, exNews], by decide, by decide⟩
  simp [exConfig, Spec.CanNode.Ok, Valid, exEvent, protocol]

example : (match exRun [.cycle] with
      | .ok n => match run (AvrProps.exSurr.ctx 0) (AvrProps.exSurr.cb 0) exAround exConfig n with
        | .ok n' => decide (n.w.v.st = .active ∧ n.x.2.stored.length = n.heard.length ∧ n'.x.2.stored.length = n'.heard.length ∧ .portRestore ∉ n'.w.out)
        | _ => false
      | _ => false) = true ∧
    (look (exRun ([.cycle] ++ exConfig ++ [.rx exNews, .cycle] ++ List.replicate 14 .tx))).map (fun r => r.2.getLast?) =
      some (some (3 * 2 ^ 26 + 20 * 2 ^ 16 + 3 * 2 ^ 8 + 5, [0, 255, 255])) ∧
    ((look (exRun ([.cycle] ++ exConfig ++ [.rx exNews, .cycle] ++ List.replicate 14 .tx))).map fun r => r.2.length) =
      ((look (exRun ([.cycle] ++ exConfig ++ List.replicate 14 .tx))).map fun r => r.2.length + 1) ∧
    look (exRun ([.cycle] ++ [.rx exNews, .cycle] ++ List.replicate 14 .tx)) = some ([1, 5, 1, 1, 1], [(2 * 2 ^ 8 + 5, [5])]) := by
  refine ⟨by decide +kernel, by decide +kernel, by decide +kernel, by decide +kernel⟩

end Vscp.CanConfig
