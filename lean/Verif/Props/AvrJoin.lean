/-
Property theorems: an AVR example without a nickname gets one (C124).
-/
import Verif.Props.AvrBeat
import Verif.Props.DiscoveryEnds
import Verif.Props.SegmentLoss

namespace Vscp.Avr.Sys
open M Vscp.Driver Vscp.Spec Vscp.Spec.AvrSys Vscp.Safety Vscp.Transport Vscp.Discovery
open Vscp.Driver.CanNode (Around Res)

variable {s : Surr} {a : Nat → Around}

/-! ### The time a node can still look for a nickname -/

/-- The nicknames a node can still probe behind the given one; none if it does not hear anything (`b`). -/
def more (b : Bool) (p : U8) : Nat := if b then (if p = 0xFF then 256 else 255 - p.toNat) else 0

/-- Milliseconds, without the time for which the main timer runs. -/
def base (b : Bool) (d : Disc) : Nat :=
  let x := more b 1 * 2002 + 2002
  let r := if d.running then 1 else 0
  if d.st = .preActive then x + r
  else match d.ist with
    | .probeMaster => x + 1001
    | .probeMasterWait => x + r
    | .probe => if d.probe = 0xFF then 0 else more b d.probe * 2002 + 2001
    | .probeWait => more b d.probe * 2002 + r

/-- All milliseconds; `r`: those until the next 250 ms have elapsed, `p`: those until the next cycle. -/
def cost (b : Bool) (d : Disc) (r p : Nat) : Nat := base b d + if waits d then 250 * ((d.rem.toNat + 249) / 250 - 1) + r else p

theorem more_next {p : U8} (hp : p ≠ 0xFE) : more true (p + 1) + 1 ≤ more true p ∧ p + 1 ≠ 0xFF := by
  unfold more
  simp only [if_true]
  revert p
  decide +kernel

theorem more_le (b : Bool) (p : U8) : more b p ≤ 256 := by
  unfold more
  split
  · split <;> omega
  · omega

theorem running_of {d : Disc} (h : d.running = true) : d.rem.toNat ≠ 0 := by
  unfold Disc.running at h
  rw [Bool.and_eq_true] at h
  intro e
  have : d.rem = 0 := BitVec.eq_of_toNat_eq e
  rw [this] at h
  exact absurd h.2 (by decide)

theorem cost_probeMaster (b : Bool) (p : U8) (x : U16) (k : Bool) (r q : Nat) : cost b ⟨.init, .probeMaster, p, x, k⟩ r q = more b 1 * 2002 + 3003 + q := by
  simp [cost, base, waits]

theorem cost_probe (b : Bool) (p : U8) (x : U16) (k : Bool) (r q : Nat) : cost b ⟨.init, .probe, p, x, k⟩ r q = (if p = 0xFF then 0 else more b p * 2002 + 2001) + q := by
  simp [cost, base, waits]

/-- The time of the main timer. -/
def spell (d : Disc) (r q : Nat) : Nat := if d.running then 1 + (250 * ((d.rem.toNat + 249) / 250 - 1) + r) else q

theorem cost_masterWait (b : Bool) (p : U8) (x : U16) (k : Bool) (r q : Nat) :
    cost b ⟨.init, .probeMasterWait, p, x, k⟩ r q = more b 1 * 2002 + 2002 + spell ⟨.init, .probeMasterWait, p, x, k⟩ r q := by
  unfold cost spell
  simp only [base, waits, reduceCtorEq, if_false, false_or, true_and, true_or, and_true]
  split <;> omega

theorem cost_probeWait (b : Bool) (p : U8) (x : U16) (k : Bool) (r q : Nat) :
    cost b ⟨.init, .probeWait, p, x, k⟩ r q = more b p * 2002 + spell ⟨.init, .probeWait, p, x, k⟩ r q := by
  unfold cost spell
  simp only [base, waits, reduceCtorEq, if_false, false_or, true_and, or_true, and_true]
  split <;> omega

theorem cost_preActive (b : Bool) (i : ISt) (p : U8) (x : U16) (k : Bool) (r q : Nat) :
    cost b ⟨.preActive, i, p, x, k⟩ r q = more b 1 * 2002 + 2002 + spell ⟨.preActive, i, p, x, k⟩ r q := by
  unfold cost spell
  simp only [base, waits, if_true, true_or, and_true]
  split <;> omega

/-- A cycle. -/
theorem cycle_cost {c : Ctx} (htx : ∀ n, c.txOk n = true) (h1 : c.startProbe = 1) (h2 : c.initTimeout = 1000) (h3 : c.probeAckTimeout = 2000) (b : Bool) (rx : Option Msg)
    {w : W} (hrx : b = false → (readMessage c rx w).1 = none) (hok : w.tm.ok .main = true) (hl : looking w) (hl' : looking (Core.process c rx w).2) {r : Nat} (hr : r ≤ 250) :
    cost b (disc (Core.process c rx w).2) r 1 ≤ cost b (disc w) r 0 := by
  have hd0 : disc w = ⟨w.v.st, w.v.ist, w.v.probe, w.tm.rem .main, true⟩ := by simp [disc, hok]
  rcases hl with hst | hst
  · cases hist : w.v.ist with
    | probeMaster =>
      rcases cycle_probeMaster c rx w hst hist with ⟨hf, -, -⟩ | ⟨-, -, hd⟩
      · rw [htx] at hf; cases hf
      · rw [if_pos hok, h2] at hd
        rw [hd, hd0, hst, hist, cost_probeMaster, cost_masterWait]
        show _ + (1 + (250 * ((1000 + 249) / 250 - 1) + r)) ≤ _
        omega
    | probeMasterWait =>
      obtain ⟨-, ⟨hrn, hd⟩ | ⟨hrn, hd | hd⟩⟩ := cycle_probeMasterWait c rx w hst hist <;> rw [hd] <;> rw [hd0, hst, hist] at hrn ⊢
      · rw [h1, cost_probe, cost_masterWait]
        simp only [show ((1 : U8) = 0xFF) = False by decide, if_false]
        omega
      · rw [cost_masterWait, cost_preActive]
        have hrn' : (⟨.preActive, .probeMasterWait, w.v.probe, w.tm.rem .main, true⟩ : Disc).running = true := hrn
        simp only [spell, hrn, hrn', if_true]
        exact Nat.le_refl _
      · rw [cost_masterWait, cost_masterWait]
        simp only [spell, hrn, if_true]
        exact Nat.le_refl _
    | probe =>
      rcases cycle_probe c rx w hst hist with ⟨hf, -, -⟩ | ⟨-, -, ⟨-, hd⟩ | ⟨hnf, hd⟩⟩
      · rw [htx] at hf; cases hf
      · unfold looking at hl'
        rw [hd] at hl'
        simp at hl'
      · rw [if_pos hok, h3] at hd
        rw [hd, hd0, hst, hist, cost_probe, cost_probeWait, if_neg hnf]
        show more b w.v.probe * 2002 + (1 + (250 * ((2000 + 249) / 250 - 1) + r)) ≤ _
        omega
    | probeWait =>
      rcases cycle_probeWait c rx w hst hist with ⟨-, ha, -, -⟩ | ⟨hrn, -, ⟨⟨m, hm, -⟩, hd⟩ | ⟨-, hd⟩⟩
      · unfold looking at hl'
        rw [ha] at hl'
        simp at hl'
      · cases b with
        | false => rw [hrx rfl] at hm; cases hm
        | true =>
          rw [hd]
          rw [hd0, hst, hist] at hrn ⊢
          rw [cost_probe, cost_probeWait]
          simp only [spell, hrn, if_true]
          by_cases hp : w.v.probe = 0xFE
          · rw [if_pos (by rw [hp]; decide)]
            omega
          · obtain ⟨e1, e2⟩ := more_next hp
            rw [if_neg e2]
            omega
      · rw [hd]
        rw [hd0, hst, hist] at hrn ⊢
        rw [cost_probeWait, cost_probeWait]
        simp only [spell, hrn, if_true]
        exact Nat.le_refl _
  · rcases cycle_preActive c rx w hst with ⟨hrn, -, hd⟩ | ⟨hrn, ha | ⟨-, hd⟩⟩
    · rw [hd]
      rw [hd0, hst] at hrn ⊢
      rw [h1, cost_probe, cost_preActive]
      simp only [show ((1 : U8) = 0xFF) = False by decide, if_false]
      omega
    · unfold looking at hl'
      rw [ha] at hl'
      simp at hl'
    · rw [hd]
      rw [hd0, hst] at hrn ⊢
      rw [cost_preActive, cost_preActive]
      simp only [spell, hrn, if_true]
      exact Nat.le_refl _

/-- 250 ms pass. -/
theorem due_cost (b : Bool) {d d' : Disc} (e1 : d'.st = d.st) (e2 : d'.ist = d.ist) (e3 : d'.probe = d.probe) (e4 : d'.ok = d.ok) (e5 : d'.rem.toNat = d.rem.toNat - 250) {p : Nat} (hp : p ≤ 1) :
    cost b d' 250 p ≤ cost b d 0 p := by
  have hrun : d'.running = true → d.running = true := by
    intro h
    have := running_of h
    unfold Disc.running at h ⊢
    rw [e4] at h
    rw [Bool.and_eq_true] at h ⊢
    refine ⟨h.1, ?_⟩
    simp only [bne_iff_ne, ne_eq]
    intro h0
    rw [h0] at e5
    simp at e5
    omega
  have hbase : base b d' ≤ base b d := by
    unfold base
    rw [e1, e2, e3]
    have : (if d'.running = true then 1 else 0) ≤ (if d.running = true then 1 else 0 : Nat) := ite_mono hrun
    dsimp only
    split
    · omega
    · split <;> first | omega | exact Nat.le_refl _
  by_cases hw : waits d
  · by_cases hw' : waits d'
    · have hz := running_of hw'.1
      unfold cost
      rw [if_pos hw, if_pos hw']
      omega
    · have hn : d'.running = false := by
        cases h : d'.running with
        | false => rfl
        | true => exact absurd ⟨h, by rw [e1, e2]; exact hw.2⟩ hw'
      have hb : base b d' + 1 ≤ base b d := by
        unfold base
        rw [e1, e2, e3, hn, hw.1]
        rcases hw.2 with h | ⟨h, h' | h'⟩
        · simp [h]
        · simp [h, h']
        · simp [h, h']
      unfold cost
      rw [if_pos hw, if_neg hw']
      omega
  · have hw' : ¬waits d' := fun h => hw ⟨hrun h.1, by rw [← e1, ← e2]; exact h.2⟩
    unfold cost
    rw [if_neg hw, if_neg hw']
    omega

theorem base_bound {b : Bool} {d : Disc} {n : Nat} (h1 : more b 1 ≤ n) (h2 : more b d.probe ≤ n) : base b d ≤ n * 2002 + 3003 := by
  unfold base
  generalize more b 1 = x at *
  generalize more b d.probe = y at *
  dsimp only
  split
  · split <;> omega
  · split
    · omega
    · split <;> omega
    · split <;> omega
    · split <;> omega

theorem cost_bound {b : Bool} {d : Disc} {n : Nat} (h1 : more b 1 ≤ n) (h2 : more b d.probe ≤ n) {r p : Nat} (hr : r ≤ 250) (hp : p ≤ 1) : cost b d r p ≤ n * 2002 + 70000 := by
  have h3 := d.rem.isLt
  have h4 := base_bound h1 h2
  unfold cost
  generalize base b d = x at *
  generalize d.rem.toNat = y at *
  split <;> omega

/-! ### Moves -/

/-- Milliseconds until the next cycle. -/
def pend (y : State) (l : List Move) : Nat := if dist y.pc ≤ stepsNow l then 0 else 1

/-- An example which looks for a nickname, and whose button is not pressed; `b`: it may hear something. -/
structure Seeks (b : Bool) (y : State) : Prop where
  fresh : Fresh y
  up : y.pressed = false
  deaf : b = false → y.x.2.stored.length = y.heard.length

theorem pend_le (y : State) (l : List Move) : pend y l ≤ 1 := by
  unfold pend
  split <;> omega

theorem seeks_does (b : Bool) {y y1 : State} {mv : Move} (htx : ∀ k, (s.env y.fw.life).txOk k = true) (hi : Inv s y) (h : Seeks b y) (hm : AvrSys.Ok mv ∧ Alone mv) (hb : b = false → ∀ f, mv ≠ .rx f)
    (hd : Does s a y mv y1) {l : List Move} (ht : InTime y (mv :: l)) (hl : looking y.fw.w) (hl1 : looking y1.fw.w) :
    Seeks b y1 ∧ y1.fw.life = y.fw.life ∧ cost b (disc y1.fw.w) (rest y1) (pend y1 l) + ticks [mv] ≤ cost b (disc y.fw.w) (rest y) (pend y (mv :: l)) := by
  have hna : y.fw.w.v.st ≠ .active := by
    rcases hl with h | h <;> rw [h] <;> decide
  have hf1 := fresh_does hi h.fresh hd
  have hrest : rest y ≤ 250 := hi.sw.le
  -- a step of the main loop which does not concern the framework
  have quiet : ∀ {y1 : State}, y1.fw.w = y.fw.w → rest y1 = rest y → mv = .step → dist y.pc = dist y1.pc + 1 →
      cost b (disc y1.fw.w) (rest y1) (pend y1 l) + ticks [mv] ≤ cost b (disc y.fw.w) (rest y) (pend y (mv :: l)) := by
    rintro y1 e1 e2 rfl e3
    have e4 : pend y1 l = pend y (.step :: l) := by
      unfold pend
      rw [e3]
      simp only [stepsNow, Nat.add_le_add_iff_right]
    rw [e1, e2, e4]
    exact Nat.le_refl _
  cases hd with
  | tick b' =>
    have hb' : b' = false := hm.2
    subst hb'
    have e : rest (timerCb false y) = rest y - 1 := (sw_tick hi.sw).2
    refine ⟨⟨hf1, by simp only [timerCb, Button.isrAvr, if_true], h.deaf⟩, rfl, ?_⟩
    obtain ⟨⟨h4, -⟩, h2⟩ := ht
    have hpos : 0 < need y.pc := by cases y.pc <;> decide
    have hr : rest y ≠ 0 := fun h => by have := h2 h; simp only [stepsNow] at this; omega
    have hd4 : dist y.pc ≤ 4 := by cases y.pc <;> decide
    have hd1 : 1 ≤ dist y.pc := by cases y.pc <;> decide
    have p1 : pend (timerCb false y) l = 0 := if_pos (show dist y.pc ≤ _ by omega)
    have p2 : pend y (.tick false :: l) = 1 := if_neg (by simp only [stepsNow]; omega)
    rw [e, p1, p2]
    show cost b (disc y.fw.w) (rest y - 1) 0 + 1 ≤ _
    unfold cost
    split <;> omega
  | power => exact absurd hm.2 id
  | rx f x hc =>
    refine ⟨⟨hf1, h.up, fun hb' => absurd rfl (hb hb' f)⟩, rfl, Nat.le_refl _⟩
  | tx x hc =>
    simp only [CanNode.move] at hc
    cases hc
    exact ⟨⟨hf1, h.up, h.deaf⟩, rfl, Nat.le_refl _⟩
  | segInit x hpc hp hl hc => rw [h.up] at hp; cases hp
  | quiet hpc hp => exact ⟨⟨hf1, h.up, h.deaf⟩, rfl, quiet rfl rfl rfl (by rw [hpc]; rfl)⟩
  | remember hpc => exact ⟨⟨hf1, h.up, h.deaf⟩, rfl, quiet rfl rfl rfl (by rw [hpc]; rfl)⟩
  | notDue hpc hz => exact ⟨⟨hf1, h.up, h.deaf⟩, rfl, quiet rfl rfl rfl (by rw [hpc]; rfl)⟩
  | due x sw hpc hz hsw hc =>
    obtain ⟨k1, k2, k3, k4, -, -, k7⟩ := AvrProps.tick_call s 250 y.fw
    have e : (later s y.fw).w = (Avr.call s (.tick 250) y.fw).w := by rw [later_w, call_w]
    rw [← e] at k1 k2 k3 k4 k7
    refine ⟨⟨hf1, h.up, fun hb' => ?_⟩, later_life y.fw, ?_⟩
    · rcases CanNode.callFw_good (AvrProps.good s.sz (s.env y.fw.life)) (AvrProps.cb_ok (s.stack y.fw.life)) (a y.fw.life) (op := .tick 250) trivial hi.good with e | ⟨n', e, -, -, -, e4, -⟩
      · rw [show CanNode.move (s.ctx y.fw.life) (s.cb y.fw.life) (a y.fw.life) (node y) (.call (.tick 250)) = _ from e] at hc; cases hc
      · rw [show CanNode.move (s.ctx y.fw.life) (s.cb y.fw.life) (a y.fw.life) (node y) (.call (.tick 250)) = _ from e] at hc
        cases hc
        show x.2.stored.length = y.heard.length
        exact (congrArg List.length e4).trans (h.deaf hb')
    · have p1 : pend { y with fw := later s y.fw, x, sw, clk := Clock.process (MainLoop.PERIOD.setWidth 16) y.clk, pc := .process } l = pend y (.step :: l) := by
        unfold pend
        rw [hpc]
        show (if 1 ≤ stepsNow l then 0 else 1) = (if 2 ≤ stepsNow l + 1 then 0 else 1)
        split <;> split <;> omega
      have er : rest { y with fw := later s y.fw, x, sw, clk := Clock.process (MainLoop.PERIOD.setWidth 16) y.clk, pc := .process } = 250 := hsw
      rw [p1, er, hz]
      exact due_cost b (d := disc y.fw.w) (d' := disc (later s y.fw).w) (by simp only [disc, k1]) (by simp only [disc, k1]) (by simp only [disc, k1]) (by simp only [disc, k4]) k7 (pend_le ..)
  | reset m ctl hpc hm' hr =>
    have := (AvrProps.reset_last s m y.fw (ok_small hm') hr).1
    rcases hl with h | h <;> rw [h] at this <;> cases this
  | cycle m x hpc hm' hr hc =>
    have hm0 : b = false → m = none ∧ x.2.stored = y.x.2.stored := by
      intro hb'
      rcases CanNode.cycle_good (AvrProps.good s.sz (s.env y.fw.life)) (AvrProps.cb_ok (s.stack y.fw.life)) (a y.fw.life) hi.good with e | ⟨n', m', e, e2, -, e4, e5, e6, -⟩
      · rw [show CanNode.move (s.ctx y.fw.life) (s.cb y.fw.life) (a y.fw.life) (node y) .cycle = _ from e] at hc; cases hc
      · rw [show CanNode.move (s.ctx y.fw.life) (s.cb y.fw.life) (a y.fw.life) (node y) .cycle = _ from e] at hc
        cases hc
        have h1 : (y.heard ++ m.toList).length = x.2.got.length := e2.len
        have h2 : x.2.stored = y.x.2.stored := e5
        have h3 : x.2.stored.length = x.2.got.length := by
          have := congrArg List.length e6
          simpa using this
        have h4 := h.deaf hb'
        rw [← h2, h3, ← h1] at h4
        refine ⟨?_, h2⟩
        cases m with
        | none => rfl
        | some m => simp at h4
    have e : (Avr.call s (.process m) y.fw).w = (Core.process (s.ctx y.fw.life) m y.fw.w).2 :=
      AvrProps.calm_op (s.stack y.fw.life) (.process m) y.fw.w fun _ _ => .inl hna
    refine ⟨⟨hf1, h.up, fun hb' => ?_⟩, rfl, ?_⟩
    · obtain ⟨rfl, hx⟩ := hm0 hb'
      show x.2.stored.length = (y.heard ++ []).length
      rw [hx, List.append_nil]
      exact h.deaf hb'
    · have p2 : pend y (.step :: l) = 0 := by
        unfold pend
        rw [hpc]
        exact if_pos (by simp only [stepsNow, dist]; omega)
      have hl1 : looking (Avr.call s (.process m) y.fw).w := hl1
      show cost b (disc (Avr.call s (.process m) y.fw).w) (rest y) _ + 0 ≤ _
      rw [p2]
      rw [e] at hl1 ⊢
      refine Nat.le_trans ?_ (cycle_cost (c := s.ctx y.fw.life) htx rfl rfl rfl b m (fun hb' => ?_) h.fresh.ok hl hl1 hrest)
      · have := pend_le { y with fw := Avr.call s (.process m) y.fw, x, heard := y.heard ++ m.toList, pc := .check } l
        unfold cost
        split <;> omega
      · obtain ⟨rfl, -⟩ := hm0 hb'
        rfl

/-- The time for which an example looks for a nickname. -/
theorem seeks_run (b : Bool) : ∀ (l : List Move) {y y' : State}, (∀ k, (s.env y.fw.life).txOk k = true) → Inv s y → Seeks b y → (∀ mv ∈ l, AvrSys.Ok mv ∧ Alone mv) → (b = false → ∀ mv ∈ l, ∀ f, mv ≠ .rx f) →
    InTime y l → run s a l y = .ok y' → (∀ l1 l2 y1, l = l1 ++ l2 → run s a l1 y = .ok y1 → looking y1.fw.w) → ticks l ≤ cost b (disc y.fw.w) (rest y) (pend y l)
  | [], y, y', _, _, _, _, _, _, _, _ => Nat.zero_le _
  | mv :: l, y, y', htx, hi, h, hl, hb, ht, hr, hk => by
    have hl' : ∀ mv ∈ l, AvrSys.Ok mv ∧ Alone mv := fun mv h => hl mv (List.mem_cons_of_mem _ h)
    have hmv := hl _ (List.mem_cons_self ..)
    obtain ⟨y1, hm, hd, h1, hr'⟩ := head_run hi hmv.1 hr
    obtain ⟨q1, q2, q3⟩ := seeks_does b htx hi h hmv (fun hb' => hb hb' mv (List.mem_cons_self ..)) hd ht (hk [] _ y rfl rfl) (hk [mv] l y1 rfl hm)
    obtain ⟨lc, lb, evs, k, -, -, p3⟩ := does_parts hi hmv.1 hd q2
    have hsum : ticks (mv :: l) = ticks [mv] + ticks l := ticks_append [mv] l
    have ih := seeks_run b l (by rw [q2]; exact htx) h1 q1 hl' (fun hb' mv h => hb hb' mv (List.mem_cons_of_mem _ h)) (p3 l ht).1 hr' (fun l1 l2 y2 e hr1 => hk (mv :: l1) l2 y2 (by rw [e]; rfl) (by
      rw [show mv :: l1 = [mv] ++ l1 from rfl, run_append, hm]; exact hr1))
    omega

/-- C124: an AVR example which looks for a nickname has one within ten minutes, or has given up, whatever it hears; provided that its main loop runs once in each millisecond, nobody presses its
button, the power stays on, and its adapter takes the events. -/
theorem C124_ends {past : List Out} {n : Nat} {ps : Nat → U8} {ctl : CanDrv.State} {l l' : List Move} (htx : ∀ k, (s.env n).txOk k = true) (hl : ∀ mv ∈ l, AvrSys.Ok mv)
    (hl' : ∀ mv ∈ l', AvrSys.Ok mv ∧ Alone mv) {y y' : State} (hr : run s a l (boot s past n ps ctl) = .ok y) (hr' : run s a l' y = .ok y') (hn : y.fw.life = n) (hp : y.pressed = false)
    (hf : Fast (l ++ l')) (ht : 600000 ≤ ticks l') :
    ∃ l1 l2 y1, l' = l1 ++ l2 ∧ run s a l1 y = .ok y1 ∧ ¬looking y1.fw.w := by
  refine Classical.byContradiction fun hc => ?_
  have hk : ∀ l1 l2 y1, l' = l1 ++ l2 → run s a l1 y = .ok y1 → looking y1.fw.w := fun l1 l2 y1 e hr1 => Decidable.byContradiction fun hn => hc ⟨l1, l2, y1, e, hr1, hn⟩
  have hi := inv_of (boot_inv past n ps ctl) hl hr
  have hint := run_inTime l l' (boot_inv past n ps ctl) hl hr hn ⟨hf, fun h => (by rw [rest_boot] at h; cases h)⟩
  have hfr := run_fresh l (boot_inv past n ps ctl) hl (fresh_boot ..) hr
  have := seeks_run true l' (by rw [hn]; exact htx) hi ⟨hfr, hp, fun h => (by cases h)⟩ hl' (fun h => (by cases h)) hint hr' hk
  have hle : rest y ≤ 250 := hi.sw.le
  have hb := cost_bound (b := true) (d := disc y.fw.w) (n := 256) (more_le ..) (more_le ..) hle (pend_le y l')
  omega

/-! ### Left alone -/

/-- A move of an example which hears nothing: a cycle without an event, or the framework and its memory stay as they are but for the timers. -/
theorem lone_does {y y1 : State} {mv : Move} (hi : Inv s y) (h : Seeks false y) (hm : Lone mv) (hd : Does s a y mv y1) (hst : y.fw.w.v.st ≠ .reset) :
    Seeks false y1 ∧ y1.fw.life = y.fw.life ∧
    ((y1.fw.w.v = y.fw.w.v ∧ y1.fw.w.ps = y.fw.w.ps ∧ (y.pc = .process → mv ≠ .step ∧ y1.pc = .process)) ∨
     (mv = .step ∧ y.pc = .process ∧ y1.fw.w = (Core.process (s.ctx y.fw.life) none y.fw.w).2)) := by
  have hf1 := fresh_does hi h.fresh hd
  cases hd with
  | tick b =>
    have hb : b = false := hm.1
    subst hb
    exact ⟨⟨hf1, by simp only [timerCb, Button.isrAvr, if_true], h.deaf⟩, rfl, .inl ⟨rfl, rfl, fun e => ⟨fun h => (by cases h), e⟩⟩⟩
  | power => exact absurd hm.1 id
  | rx f x hc => exact absurd rfl (hm.2 f)
  | tx x hc =>
    simp only [CanNode.move] at hc
    cases hc
    exact ⟨⟨hf1, h.up, h.deaf⟩, rfl, .inl ⟨rfl, rfl, fun e => ⟨fun h => (by cases h), e⟩⟩⟩
  | segInit x hpc hp hl hc => rw [h.up] at hp; cases hp
  | quiet hpc hp => exact ⟨⟨hf1, h.up, h.deaf⟩, rfl, .inl ⟨rfl, rfl, fun e => (by rw [hpc] at e; cases e)⟩⟩
  | remember hpc => exact ⟨⟨hf1, h.up, h.deaf⟩, rfl, .inl ⟨rfl, rfl, fun e => (by rw [hpc] at e; cases e)⟩⟩
  | notDue hpc hz => exact ⟨⟨hf1, h.up, h.deaf⟩, rfl, .inl ⟨rfl, rfl, fun e => (by rw [hpc] at e; cases e)⟩⟩
  | due x sw hpc hz hsw hc =>
    obtain ⟨k1, k2, -⟩ := AvrProps.tick_call s 250 y.fw
    have e : (later s y.fw).w = (Avr.call s (.tick 250) y.fw).w := by rw [later_w, call_w]
    rw [← e] at k1 k2
    refine ⟨⟨hf1, h.up, fun hb => ?_⟩, later_life y.fw, .inl ⟨k1, k2, fun e => (by rw [hpc] at e; cases e)⟩⟩
    rcases CanNode.callFw_good (AvrProps.good s.sz (s.env y.fw.life)) (AvrProps.cb_ok (s.stack y.fw.life)) (a y.fw.life) (op := .tick 250) trivial hi.good with e | ⟨n', e, -, -, -, e4, -⟩
    · rw [show CanNode.move (s.ctx y.fw.life) (s.cb y.fw.life) (a y.fw.life) (node y) (.call (.tick 250)) = _ from e] at hc; cases hc
    · rw [show CanNode.move (s.ctx y.fw.life) (s.cb y.fw.life) (a y.fw.life) (node y) (.call (.tick 250)) = _ from e] at hc
      cases hc
      show x.2.stored.length = y.heard.length
      exact (congrArg List.length e4).trans (h.deaf hb)
  | reset m ctl hpc hm' hr => exact absurd (AvrProps.reset_last s m y.fw (ok_small hm') hr).1 hst
  | cycle m x hpc hm' hr hc =>
    have hm0 : m = none ∧ x.2.stored = y.x.2.stored := by
      rcases CanNode.cycle_good (AvrProps.good s.sz (s.env y.fw.life)) (AvrProps.cb_ok (s.stack y.fw.life)) (a y.fw.life) hi.good with e | ⟨n', m', e, e2, -, e4, e5, e6, -⟩
      · rw [show CanNode.move (s.ctx y.fw.life) (s.cb y.fw.life) (a y.fw.life) (node y) .cycle = _ from e] at hc; cases hc
      · rw [show CanNode.move (s.ctx y.fw.life) (s.cb y.fw.life) (a y.fw.life) (node y) .cycle = _ from e] at hc
        cases hc
        have h1 : (y.heard ++ m.toList).length = x.2.got.length := e2.len
        have h2 : x.2.stored = y.x.2.stored := e5
        have h3 : x.2.stored.length = x.2.got.length := by
          have := congrArg List.length e6
          simpa using this
        have h4 := h.deaf rfl
        rw [← h2, h3, ← h1] at h4
        refine ⟨?_, h2⟩
        cases m with
        | none => rfl
        | some m => simp at h4
    obtain ⟨rfl, hx⟩ := hm0
    have e : (Avr.call s (.process none) y.fw).w = (Core.process (s.ctx y.fw.life) none y.fw.w).2 :=
      AvrProps.calm_op (s.stack y.fw.life) (.process none) y.fw.w fun _ h => .inr (by cases h; rfl)
    refine ⟨⟨hf1, h.up, fun hb => ?_⟩, rfl, .inr ⟨rfl, hpc, e⟩⟩
    show x.2.stored.length = (y.heard ++ []).length
    rw [hx, List.append_nil]
    exact h.deaf rfl

/-- A node has the nickname, also in its memory. -/
def Has (c : Ctx) (w : W) (q : U8) : Prop := (w.v.st = .active ∧ w.v.nick = q) ∧ w.ps (Ps.addrNickname c) = q

/-- A node which has just been switched on, without a nickname, and which shall look for one. -/
structure Blank (c : Ctx) (w : W) : Prop where
  st : w.v.st = .startup
  nick : w.v.nick = 0xFF
  valid : validStartUp (w.ps (Ps.addrFlags c)) = true
  init : (w.ps (Ps.addrFlags c)).getLsbD 6 = true

/-- A node which has not heard of any other. -/
inductive Solo (c : Ctx) (w : W) : Prop
  | start (h : Blank c w)
  | look (h : w.v.st = .init) (hi : w.v.ist = .probeMaster ∨ w.v.ist = .probeMasterWait)
  | first (h : w.v.st = .init) (hi : w.v.ist = .probe ∨ w.v.ist = .probeWait) (hp : w.v.probe = 1)
  | done (h : Has c w 1)

theorem solo_v {c : Ctx} {w w' : W} (h : Solo c w) (hv : w'.v = w.v) (hp : w'.ps = w.ps) : Solo c w' := by
  cases h with
  | start h => exact .start ⟨by rw [hv]; exact h.st, by rw [hv]; exact h.nick, by rw [hp]; exact h.valid, by rw [hp]; exact h.init⟩
  | look h hi => exact .look (by rw [hv]; exact h) (by rw [hv]; exact hi)
  | first h hi hp' => exact .first (by rw [hv]; exact h) (by rw [hv]; exact hi) (by rw [hv]; exact hp')
  | done h => exact .done ⟨⟨by rw [hv]; exact h.1.1, by rw [hv]; exact h.1.2⟩, by rw [hp]; exact h.2⟩

theorem blank_cycle {c : Ctx} (hs : c.silent = false) (rx : Option Msg) {w : W} (h : Blank c w) :
    (Core.process c rx w).2.v.st = .init ∧ (Core.process c rx w).2.v.ist = .probeMaster := by
  have p := pre_same c rx w .ps (by decide)
  have pn := pre_same c rx w .nick (by decide)
  have pt := pre_same c rx w .st (by decide)
  simp only [Comp.same] at p pn pt
  rw [process_startup h.st]
  generalize (preProcess c rx w).2 = w1 at *
  unfold Core.stateStartup
  rw [bind_run, get_run]
  dsimp only
  rw [ite_run, if_pos (c := w1.v.nick = Core.NOT_INIT) (by rw [pn, h.nick]; rfl), ite_run, if_neg (by simp [hs])]
  have hf : ((w.ps (Ps.addrFlags c)) >>> 6) &&& 0x03 = 0x01 := by
    have hv := h.valid
    have hi := h.init
    generalize w.ps (Ps.addrFlags c) = x at hv hi
    revert x
    decide +kernel
  have hg : Core.getStartUpControl c w1 = (0x01, w1) := by
    unfold Core.getStartUpControl Ps.readFlags
    rw [bind_run, psRead8_run, p]
    dsimp only
    rw [hf]
    rfl
  have hst : w1.v.st ≠ .init := by rw [pt, h.st]; decide
  rw [bind_run, hg]
  dsimp only
  rw [whenM_run, if_pos rfl, Core.changeToStateInit, bind_run, get_run, whenM_run, if_pos hst]
  simp only [bind_run, emit_run, setV_run, writeNick_run]
  trivial

/-- Without an event nobody is the segment master. -/
theorem cycle_deafWait {c : Ctx} (hl : c.loopback = false) {w : W} (h : w.v.st = .init) (hi : w.v.ist = .probeMasterWait) : (Core.process c none w).2.v.st = .init := by
  rw [process_init h]
  have hn : (readMessage c none w).1 = none := by
    unfold readMessage
    simp [hl]
  rw [hn]
  have hd := disc_pre c none w
  have hp : (preProcess c none w).2.v.ist = .probeMasterWait := (congrArg Disc.ist hd).trans hi
  have ht : (preProcess c none w).2.v.st = .init := (congrArg Disc.st hd).trans h
  generalize (preProcess c none w).2 = w1 at *
  unfold Core.stateInit
  rw [bind_run, get_run]
  dsimp only
  rw [hp]
  dsimp only
  rw [bind_run, timerRunning_run]
  dsimp only
  cases (w1.tm.ok .main && w1.tm.rem .main != 0) with
  | false => exact ht
  | true =>
    rw [if_neg (by simp), whenM_run]
    split
    · rename_i hx
      cases hx
    · exact ht

/-- An active node without an event. -/
theorem has_cycle {k : Nat} {w : W} {q : U8} (h : Has (s.ctx k) w q) : Has (s.ctx k) (Core.process (s.ctx k) none w).2 q := by
  have h0 : (Core.activeEventOpt (s.ctx k) (readMessage (s.ctx k) none w).1 (preProcess (s.ctx k) none w).2).2 = (preProcess (s.ctx k) none w).2 := rfl
  have hs1 : Steps (s.ctx k) True _ (preProcess (s.ctx k) none w).2 (Core.activeHeartbeat (s.ctx k) (preProcess (s.ctx k) none w).2).2 := Foot.activeHeartbeat _
  have hs2 : Steps (s.ctx k) True _ (Core.activeHeartbeat (s.ctx k) (preProcess (s.ctx k) none w).2).2 _ := Foot.activeExtRead _
  have e1 := Comp.same_trans (pre_same (s.ctx k) none w .st (by decide)) (Comp.same_trans (hs1.same .st (by decide)) (hs2.same .st (by decide)))
  have e2 := Comp.same_trans (pre_same (s.ctx k) none w .nick (by decide)) (Comp.same_trans (hs1.same .nick (by decide)) (hs2.same .nick (by decide)))
  have e3 := Comp.same_trans (pre_same (s.ctx k) none w .ps (by decide)) (Comp.same_trans (hs1.same .ps (by decide)) (hs2.same .ps (by decide)))
  simp only [Comp.same] at e1 e2 e3
  rw [active_parts h.1.1, h0]
  exact ⟨⟨e1.trans h.1.1, e2.trans h.1.2⟩, (congrFun e3 _).trans h.2⟩

/-- A cycle without an event. -/
theorem solo_cycle {k : Nat} (htx : ∀ n, (s.env k).txOk n = true) {w : W} (h : Solo (s.ctx k) w) :
    Solo (s.ctx k) (Core.process (s.ctx k) none w).2 ∧ (Core.process (s.ctx k) none w).2.v.st ≠ .startup := by
  have htx : ∀ n, (s.ctx k).txOk n = true := htx
  have key : ∀ {w' : W} {d : Disc}, disc w' = d → w'.v.st = d.st ∧ w'.v.ist = d.ist ∧ w'.v.probe = d.probe := by rintro w' _ rfl; exact ⟨rfl, rfl, rfl⟩
  have look : ∀ {w' : W}, w'.v.st = .init → w'.v.ist = .probeMaster ∨ w'.v.ist = .probeMasterWait → Solo (s.ctx k) w' ∧ w'.v.st ≠ .startup :=
    fun e h => ⟨.look e h, by rw [e]; decide⟩
  have first : ∀ {w' : W}, w'.v.st = .init → w'.v.ist = .probe ∨ w'.v.ist = .probeWait → w'.v.probe = 1 → Solo (s.ctx k) w' ∧ w'.v.st ≠ .startup :=
    fun e h h' => ⟨.first e h h', by rw [e]; decide⟩
  have done : ∀ {w' : W}, Has (s.ctx k) w' 1 → Solo (s.ctx k) w' ∧ w'.v.st ≠ .startup :=
    fun h => ⟨.done h, by rw [h.1.1]; decide⟩
  cases h with
  | start h =>
    obtain ⟨h1, h2⟩ := blank_cycle (c := s.ctx k) rfl none h
    exact look h1 (.inl h2)
  | look h hi =>
    rcases hi with hi | hi
    · rcases cycle_probeMaster (s.ctx k) none w h hi with ⟨hf, -, -⟩ | ⟨-, -, hd⟩
      · rw [htx] at hf; cases hf
      · obtain ⟨e1, e2, -⟩ := key hd
        exact look (e1.trans h) (.inr e2)
    · obtain ⟨-, ⟨hrn, hd⟩ | ⟨hrn, hd | hd⟩⟩ := cycle_probeMasterWait (s.ctx k) none w h hi <;> obtain ⟨e1, e2, e3⟩ := key hd
      · exact first (e1.trans h) (.inl e2) e3
      · have := cycle_deafWait (c := s.ctx k) rfl h hi
        rw [e1] at this
        cases this
      · exact look (e1.trans h) (.inr (e2.trans hi))
  | first h hi hp =>
    rcases hi with hi | hi
    · rcases cycle_probe (s.ctx k) none w h hi with ⟨hf, -, -⟩ | ⟨-, -, ⟨hn, -⟩ | ⟨-, hd⟩⟩
      · rw [htx] at hf; cases hf
      · rw [hp] at hn; exact absurd hn (by decide)
      · obtain ⟨e1, e2, e3⟩ := key hd
        exact first (e1.trans h) (.inr e2) (e3.trans hp)
    · rcases cycle_probeWait (s.ctx k) none w h hi with ⟨-, ha, hn, hs⟩ | ⟨-, -, ⟨⟨m, hm, -⟩, -⟩ | ⟨-, hd⟩⟩
      · exact done ⟨⟨ha, hn.trans hp⟩, hs.trans hp⟩
      · cases hm
      · obtain ⟨e1, e2, e3⟩ := key hd
        exact first (e1.trans h) (.inr (e2.trans hi)) (e3.trans hp)
  | done h => exact done (has_cycle h)

theorem solo_reset {c : Ctx} {w : W} (h : Solo c w) : w.v.st ≠ .reset := by
  cases h with
  | start h => rw [h.st]; decide
  | look h => rw [h]; decide
  | first h => rw [h]; decide
  | done h => rw [h.1.1]; decide

theorem solo_looking {c : Ctx} {w : W} (h : Solo c w) (h0 : w.v.st ≠ .startup) (hn : ¬Has c w 1) : looking w := by
  cases h with
  | start h => exact absurd h.st h0
  | look h => exact .inl h
  | first h => exact .inl h
  | done h => exact absurd h hn

/-- The milliseconds until the node has a nickname. -/
def wait (y : State) (l : List Move) : Nat := if y.fw.w.v.st = .startup then 3004 + pend y l else cost false (disc y.fw.w) (rest y) (pend y l)

theorem solo_run : ∀ (l : List Move) {y y' : State}, (∀ k, (s.env y.fw.life).txOk k = true) → Inv s y → Seeks false y → Solo (s.ctx y.fw.life) y.fw.w → (y.fw.w.v.st = .startup → y.pc = .process) →
    (∀ mv ∈ l, AvrSys.Ok mv ∧ Lone mv) → InTime y l → run s a l y = .ok y' → y'.fw.life = y.fw.life ∧ (Has (s.ctx y.fw.life) y'.fw.w 1 ∨ ¬Has (s.ctx y.fw.life) y.fw.w 1 ∧ ticks l ≤ wait y l)
  | [], y, y', _, _, _, _, _, _, _, hr => by
    cases hr
    exact ⟨rfl, (Classical.em _).imp id fun h => ⟨h, Nat.zero_le _⟩⟩
  | mv :: l, y, y', htx, hi, h, hs, hpc, hl, ht, hr => by
    have hl' : ∀ mv ∈ l, AvrSys.Ok mv ∧ Lone mv := fun mv h => hl mv (List.mem_cons_of_mem _ h)
    have hmv := hl _ (List.mem_cons_self ..)
    obtain ⟨y1, hm, hd, h1, hr'⟩ := head_run hi hmv.1 hr
    obtain ⟨q1, q2, q3⟩ := lone_does hi h hmv.2 hd (solo_reset hs)
    obtain ⟨lc, lb, evs, k, -, -, p3⟩ := does_parts hi hmv.1 hd q2
    have hsum : ticks (mv :: l) = ticks [mv] + ticks l := ticks_append [mv] l
    have hs1 : Solo (s.ctx y.fw.life) y1.fw.w := by
      rcases q3 with ⟨e1, e2, -⟩ | ⟨-, -, e⟩
      · exact solo_v hs e1 e2
      · rw [e]; exact (solo_cycle htx hs).1
    have hpc1 : y1.fw.w.v.st = .startup → y1.pc = .process := by
      intro h0
      rcases q3 with ⟨e1, -, e3⟩ | ⟨-, -, e⟩
      · exact (e3 (hpc (by rw [← e1]; exact h0))).2
      · rw [e] at h0
        exact absurd h0 (solo_cycle htx hs).2
    have ih := solo_run l (by rw [q2]; exact htx) h1 q1 (by rw [q2]; exact hs1) hpc1 hl' (p3 l ht).1 hr'
    rw [q2] at ih
    refine ⟨ih.1, ih.2.imp id fun ⟨hn1, hle⟩ => ?_⟩
    have hn0 : ¬Has (s.ctx y.fw.life) y.fw.w 1 := by
      intro h0
      apply hn1
      rcases q3 with ⟨e1, e2, -⟩ | ⟨-, -, e⟩
      · exact ⟨⟨by rw [e1]; exact h0.1.1, by rw [e1]; exact h0.1.2⟩, by rw [e2]; exact h0.2⟩
      · rw [e]; exact has_cycle h0
    refine ⟨hn0, ?_⟩
    have hp1 := pend_le y1 l
    by_cases h0 : y.fw.w.v.st = .startup
    · have hpc0 := hpc h0
      rcases q3 with ⟨e1, e2, e3⟩ | ⟨rfl, -, e⟩
      · have h01 : y1.fw.w.v.st = .startup := by rw [e1]; exact h0
        have hpc1 := (e3 hpc0).2
        unfold wait at hle ⊢
        rw [if_pos h01] at hle
        rw [if_pos h0]
        have hmv' := (e3 hpc0).1
        unfold pend at hle ⊢
        rw [hpc1] at hle
        rw [hpc0]
        cases mv with
        | tick b =>
          obtain ⟨⟨h4, -⟩, -⟩ := ht
          rw [if_pos (show dist .process ≤ stepsNow l by simp only [dist]; omega)] at hle
          rw [if_neg (show ¬dist .process ≤ stepsNow (.tick b :: l) by simp only [dist, stepsNow]; omega)]
          rw [hsum]
          show 1 + _ ≤ _
          omega
        | step => exact absurd rfl hmv'
        | rx f => exact absurd rfl (hmv.2.2 f)
        | tx =>
          rw [hsum]
          show 0 + _ ≤ _
          rw [Nat.zero_add]
          exact hle
        | power => exact absurd hmv.2.1 id
      · have hb : Blank (s.ctx y.fw.life) y.fw.w := by
          cases hs with
          | start h => exact h
          | look h => rw [h0] at h; cases h
          | first h => rw [h0] at h; cases h
          | done h => exact absurd h hn0
        obtain ⟨e1, e2⟩ := blank_cycle (c := s.ctx y.fw.life) rfl none hb
        rw [← e] at e1 e2
        unfold wait at hle ⊢
        rw [if_neg (by rw [e1]; decide)] at hle
        rw [if_pos h0]
        have hd0 : disc y1.fw.w = ⟨.init, .probeMaster, y1.fw.w.v.probe, y1.fw.w.tm.rem .main, y1.fw.w.tm.ok .main⟩ := by simp [disc, e1, e2]
        rw [hd0, cost_probeMaster] at hle
        have : more false 1 = 0 := rfl
        rw [this] at hle
        rw [hsum]
        show 0 + _ ≤ _
        omega
    · have hl0 := solo_looking hs h0 hn0
      have h01 : y1.fw.w.v.st ≠ .startup := by
        intro h01
        rcases q3 with ⟨e1, -, -⟩ | ⟨-, -, he⟩
        · exact h0 (by rw [← e1]; exact h01)
        · exact (solo_cycle htx hs).2 (by rw [← he]; exact h01)
      have hl1 := solo_looking hs1 h01 hn1
      obtain ⟨-, -, hc⟩ := seeks_does false htx hi h ⟨hmv.1, hmv.2.1⟩ (fun _ => hmv.2.2) hd ht hl0 hl1
      unfold wait at hle ⊢
      rw [if_neg h01] at hle
      rw [if_neg h0]
      omega

/-- C124: an AVR example which is switched on without a nickname, with a memory which tells it to look for one, and which hears nothing, has the nickname 1 three seconds later, also in its memory,
and keeps it; provided that its main loop runs once in each millisecond, nobody presses its button, the power stays on, and its adapter takes the events. -/
theorem C124_alone {past : List Out} {n : Nat} {ps : Nat → U8} {ctl : CanDrv.State} {l : List Move} (htx : ∀ k, (s.env n).txOk k = true)
    (hl : ∀ mv ∈ l, AvrSys.Ok mv ∧ AvrSys.Alone mv ∧ ∀ b, mv ≠ .rx b) {y : State} (hr : run s a l (boot s past n ps ctl) = .ok y) (hf : Fast l)
    (hn : ps 0 = 0xFF) (hv : validStartUp (ps 2) = true) (hb : (ps 2).getLsbD 6 = true) (ht : 3005 < ticks l) :
    y.fw.life = n ∧ y.fw.w.v.st = .active ∧ y.fw.w.v.nick = 1 ∧ y.fw.w.ps 0 = 1 := by
  obtain ⟨h1, h2, -, -, -, h5, -⟩ := Vscp.RestartProps.start (c := s.ctx n) allOk ps hv
  have hbl : Blank (s.ctx n) (boot s past n ps ctl).fw.w := ⟨h5 rfl, h2.trans hn, by
    show validStartUp ((Core.init (s.ctx n) allOk (powerUp ps)).2.ps (Ps.addrFlags (s.ctx n))) = true
    rw [show (Core.init (s.ctx n) allOk (powerUp ps)).2.ps = ps from h1]; exact hv, by
    show ((Core.init (s.ctx n) allOk (powerUp ps)).2.ps (Ps.addrFlags (s.ctx n))).getLsbD 6 = true
    rw [show (Core.init (s.ctx n) allOk (powerUp ps)).2.ps = ps from h1]; exact hb⟩
  obtain ⟨e, h | ⟨-, h⟩⟩ := solo_run l (y := boot s past n ps ctl) htx (boot_inv past n ps ctl) ⟨fresh_boot .., rfl, fun _ => rfl⟩ (.start hbl) (fun _ => rfl) hl
    ⟨hf, fun h => (by rw [rest_boot] at h; cases h)⟩ hr
  · exact ⟨e, h.1.1, h.1.2, h.2⟩
  · unfold wait at h
    rw [if_pos hbl.st] at h
    have := pend_le (boot s past n ps ctl) l
    omega

/-- C124: the same for an example which has begun to look for a nickname, for whatever reason, and then hears nothing. -/
theorem C124_later {past : List Out} {n : Nat} {ps : Nat → U8} {ctl : CanDrv.State} {l l' : List Move} (htx : ∀ k, (s.env n).txOk k = true) (hl : ∀ mv ∈ l, AvrSys.Ok mv)
    (hl' : ∀ mv ∈ l', AvrSys.Ok mv ∧ AvrSys.Alone mv ∧ ∀ b, mv ≠ .rx b) {y y' : State} (hr : run s a l (boot s past n ps ctl) = .ok y) (hr' : run s a l' y = .ok y') (hn : y.fw.life = n)
    (hp : y.pressed = false) (hu : y.x.2.stored.length = y.heard.length) (hst : y.fw.w.v.st = .init)
    (hist : y.fw.w.v.ist = .probeMaster ∨ y.fw.w.v.ist = .probeMasterWait ∧ (y.fw.w.tm.rem .main).toNat ≤ 1000) (hf : Fast (l ++ l')) (ht : 3004 < ticks l') :
    y'.fw.life = n ∧ y'.fw.w.v.st = .active ∧ y'.fw.w.v.nick = 1 ∧ y'.fw.w.ps 0 = 1 := by
  have hi := inv_of (boot_inv past n ps ctl) hl hr
  have hint := run_inTime l l' (boot_inv past n ps ctl) hl hr hn ⟨hf, fun h => (by rw [rest_boot] at h; cases h)⟩
  have hfr := run_fresh l (boot_inv past n ps ctl) hl (fresh_boot ..) hr
  obtain ⟨e, h | ⟨-, h⟩⟩ := solo_run l' (by rw [hn]; exact htx) hi ⟨hfr, hp, fun _ => hu⟩ (.look hst (hist.imp id And.left)) (fun h => (by rw [hst] at h; cases h)) hl' hint hr'
  · exact ⟨e.trans hn, h.1.1, h.1.2, h.2⟩
  · have h1 := pend_le y l'
    have h2 : rest y ≤ 250 := hi.sw.le
    have h3 : more false 1 = 0 := rfl
    unfold wait at h
    rw [if_neg (by rw [hst]; decide)] at h
    rcases hist with hist | ⟨hist, hrem⟩
    · rw [show disc y.fw.w = ⟨.init, .probeMaster, y.fw.w.v.probe, y.fw.w.tm.rem .main, y.fw.w.tm.ok .main⟩ by simp [disc, hst, hist], cost_probeMaster] at h
      omega
    · rw [show disc y.fw.w = ⟨.init, .probeMasterWait, y.fw.w.v.probe, y.fw.w.tm.rem .main, y.fw.w.tm.ok .main⟩ by simp [disc, hst, hist], cost_masterWait] at h
      unfold spell at h
      dsimp only at h
      split at h <;> omega

/-! ### Examples -/

/-- The memory of an example without a nickname, which shall look for one. -/
def exLost : Nat → U8 := fun x => if x = 0 then 0xFF else AvrProps.exMem x

def exLostBoot : State := boot AvrProps.exSurr [] 0 exLost ⟨Vector.replicate 15 CanDrvProps.empty, false⟩

/-- The hypotheses of `C124_alone` are met: an example which is left alone for `n` ms, more than three seconds, has the nickname 1. -/
example (n : Nat) (hn : 3005 < n) : ∃ y, run AvrProps.exSurr (fun _ => CanNode.exAround) (exTime false n) exLostBoot = .ok y ∧ y.fw.w.v.st = .active ∧ y.fw.w.v.nick = 1 := by
  obtain ⟨ht, hf, hl⟩ := ex_time n
  obtain ⟨y, hy⟩ := C111_possible (s := AvrProps.exSurr) (a := fun _ => CanNode.exAround) (fun _ _ => rfl) (fun _ _ _ => Nat.le_refl _) (exTime false n) (fun mv h => (hl mv h).1) [] 0 exLost
    ⟨Vector.replicate 15 CanDrvProps.empty, false⟩
  obtain ⟨-, h1, h2, -⟩ := C124_alone (s := AvrProps.exSurr) (fun _ => rfl) hl hy hf rfl (by decide) (by decide) (by rw [ht]; exact hn)
  exact ⟨y, hy, h1, h2⟩

/-- Those of `C124_ends`, with a first cycle in which the example has begun to look for a nickname. -/
example (n : Nat) (hn : 600000 ≤ n) : ∃ y y', run AvrProps.exSurr (fun _ => CanNode.exAround) (exMs false) exLostBoot = .ok y ∧ y.fw.life = 0 ∧ y.pressed = false ∧ looking y.fw.w ∧
    run AvrProps.exSurr (fun _ => CanNode.exAround) (exTime false n) y = .ok y' ∧ Fast (exMs false ++ exTime false n) ∧ 600000 ≤ ticks (exTime false n) := by
  obtain ⟨ht, hf, hl⟩ := ex_time n
  have hok : ∀ mv ∈ exMs false, AvrSys.Ok mv := by simp [exMs, AvrSys.Ok]
  have poss := fun l hl => C111_possible (s := AvrProps.exSurr) (a := fun _ => CanNode.exAround) (fun _ _ => rfl) (fun _ _ _ => Nat.le_refl _) l hl [] 0 exLost
    ⟨Vector.replicate 15 CanDrvProps.empty, false⟩
  obtain ⟨y, hy⟩ := poss (exMs false) hok
  obtain ⟨y', hy'⟩ := poss (exMs false ++ exTime false n) fun mv h => (List.mem_append.1 h).elim (hok mv) fun h => (hl mv h).1
  have hst : (match run AvrProps.exSurr (fun _ => CanNode.exAround) (exMs false) exLostBoot with
    | .ok y => decide (y.fw.life = 0 ∧ y.pressed = false ∧ y.fw.w.v.st = .init)
    | _ => false) = true := by decide +kernel
  rw [show run AvrProps.exSurr (fun _ => CanNode.exAround) (exMs false) exLostBoot = _ from hy] at hst
  obtain ⟨h1, h2, h3⟩ := of_decide_eq_true hst
  rw [run_append, hy] at hy'
  exact ⟨y, y', hy, h1, h2, .inl h3, hy', ⟨by simp [stepsNow], hf⟩, Nat.le_trans hn (Nat.le_of_eq ht.symm)⟩

/-- Those of `C124_later`: one whose button was held for 101 ms. -/
example (n : Nat) (hn : 3004 < n) : ∃ y y', exHist (exMs false ++ exTime true 101 ++ exMs false) = .ok y ∧ y.fw.w.v.st = .init ∧
    run AvrProps.exSurr (fun _ => CanNode.exAround) (exTime false n) y = .ok y' ∧ y'.fw.w.v.st = .active ∧ y'.fw.w.v.nick = 1 := by
  obtain ⟨ht, hf, hl⟩ := ex_time n
  have hok : ∀ mv ∈ exMs false ++ exTime true 101 ++ exMs false, AvrSys.Ok mv := by
    intro mv h
    simp only [exTime, exMs, List.mem_append, List.mem_replicate, List.mem_flatten] at h
    rcases h with (h | ⟨l, ⟨-, rfl⟩, h⟩) | h <;> simp only [List.mem_cons, List.not_mem_nil, or_false] at h <;> rcases h with rfl | rfl | rfl | rfl | rfl <;> trivial
  obtain ⟨y, hy⟩ := ex_possible hok
  obtain ⟨y', hy'⟩ := ex_possible (l := exMs false ++ exTime true 101 ++ exMs false ++ exTime false n) fun mv h => (List.mem_append.1 h).elim (hok mv) fun h => (hl mv h).1
  have hst : (match exHist (exMs false ++ exTime true 101 ++ exMs false) with
    | .ok y => decide (y.fw.life = 0 ∧ y.fw.w.v.st = .init ∧ y.fw.w.v.ist = .probeMasterWait ∧ (y.fw.w.tm.rem .main).toNat ≤ 1000 ∧ y.pressed = false ∧ y.x.2.stored.length = y.heard.length)
    | _ => false) = true := by decide +kernel
  rw [hy] at hst
  obtain ⟨h1, h2, h3, h4, h5, h6⟩ := of_decide_eq_true hst
  have hr' : run AvrProps.exSurr (fun _ => CanNode.exAround) (exTime false n) y = .ok y' := by
    unfold exHist at hy hy'
    rw [run_append, hy] at hy'
    exact hy'
  have hfast : ∀ m, Fast (exTime true m ++ (exMs false ++ exTime false n)) := fun m => by
    induction m with
    | zero => exact ⟨by simp [stepsNow], hf⟩
    | succ m ih =>
      have e : exTime true (m + 1) = exMs true ++ exTime true m := rfl
      rw [e]
      exact ⟨by simp [stepsNow], ih⟩
  obtain ⟨-, q1, q2, -⟩ := C124_later (fun _ => rfl) hok hl hy hr' h1 h5 h6 h2 (.inr ⟨h3, h4⟩) (by rw [List.append_assoc, List.append_assoc]; exact ⟨by simp [stepsNow], hfast 101⟩) (by rw [ht]; exact hn)
  exact ⟨y, y', hy, h2, hr', q1, q2⟩

end Vscp.Avr.Sys
