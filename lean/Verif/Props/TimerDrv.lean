/-
C106: the tick of the AVR example is a millisecond.
-/
import Verif.Spec.TimerDrv
import Verif.Props.Main

namespace Vscp.TimerDrvProps
open Vscp.Driver Vscp.Driver.TimerDrv Vscp.Spec.TimerDrv

/-- `n` interrupts have been served in `c` clocks, of which `x` came while one was due. -/
structure Inv (s : State) (n c x : Nat) : Prop where
  intr : s.t.intr.toNat = n % 10
  tick : s.t.tick = BitVec.ofNat 8 (n / 10)
  low : s.tov = false → 56 ≤ s.tcnt.toNat
  time : c = 200 * n + x + if s.tov then 200 else s.tcnt.toNat - 56

theorem Inv.init : Inv init 0 0 0 := ⟨rfl, rfl, fun _ => (by decide), by decide⟩

/-- Clocks until the next interrupt is due. -/
def rest (s : State) : Nat := 256 - s.tcnt.toNat

/-- What is left to say about the rest `l` of a history. -/
theorem run_inv (l : List Move) (s : State) (n c x : Nat) (h : Inv s n c x) (k : Nat) (hk : s.tov = false → k = rest s) :
    ∃ n', n ≤ n' ∧ Inv (run l s).1 n' (c + clocks l) (x + late s.tov k l) ∧
      (s.cb = true → (∀ b, Move.set b ∈ l → b = true) → (run l s).2 = n' / 10 - n / 10) := by
  induction l generalizing s n c x k with
  | nil => exact ⟨n, Nat.le_refl _, by simpa [run, clocks, late] using h, by simp [run]⟩
  | cons m l ih =>
    obtain ⟨h1, h2, h3, h4⟩ := h
    have hc := s.tcnt.isLt
    cases m with
    | set b =>
      obtain ⟨n', a, b', d⟩ := ih (setCallback b s) n c x ⟨h1, h2, h3, h4⟩ k hk
      refine ⟨n', a, ?_, ?_⟩
      · have e : clocks (.set b :: l) = clocks l := by simp [clocks]
        have e' : late s.tov k (.set b :: l) = late (setCallback b s).tov k l := by
          simp only [setCallback]; cases s.tov <;> simp [late]
        rw [e, e']
        exact b'
      · intro hcb hb
        have := d (hb b (by simp)) (fun b hm => hb b (by simp [hm]))
        simp only [run, move, Nat.zero_add]
        exact this
    | clock =>
      have e : c + clocks (.clock :: l) = (c + 1) + clocks l := by simp [clocks]; omega
      have key : ∀ x' k', Inv (clock s) n (c + 1) x' → ((clock s).tov = false → k' = rest (clock s)) →
          x + late s.tov k (.clock :: l) = x' + late (clock s).tov k' l →
          ∃ n', n ≤ n' ∧ Inv (run (.clock :: l) s).1 n' (c + clocks (.clock :: l)) (x + late s.tov k (.clock :: l)) ∧
            (s.cb = true → (∀ b, Move.set b ∈ (.clock :: l) → b = true) → (run (.clock :: l) s).2 = n' / 10 - n / 10) := by
        intro x' k' hi hk' hx
        obtain ⟨n', a, b', d⟩ := ih (clock s) n (c + 1) x' hi k' hk'
        refine ⟨n', a, ?_, ?_⟩
        · rw [e, hx]; exact b'
        · intro hcb hb
          have := d hcb (fun b hm => hb b (by simp [hm]))
          simp only [run, move, Nat.zero_add]
          exact this
      cases ht : s.tov with
      | true =>
        have hct : (clock s).tov = true := by simp [clock, ht]
        rw [ht] at key
        apply key (x + 1) k
        · refine ⟨h1, h2, fun h => (by rw [hct] at h; cases h), ?_⟩
          rw [hct]
          rw [ht] at h4
          simp only [if_true] at h4 ⊢
          omega
        · intro h; rw [hct] at h; cases h
        · rw [hct]; simp only [late]; omega
      | false =>
        rw [ht] at key
        have hk1 := hk ht
        have h31 := h3 ht
        unfold rest at hk1
        have hb : (k == 1) = (clock s).tov := by
          simp only [clock, ht, Bool.false_or]
          rw [Bool.eq_iff_iff]
          simp only [beq_iff_eq, BitVec.toNat_eq]
          have : (255 : U8).toNat = 255 := rfl
          omega
        apply key x (k - 1)
        · refine ⟨h1, h2, ?_, ?_⟩
          · intro h
            rw [← hb] at h
            have : k ≠ 1 := by simpa using h
            have e : (clock s).tcnt.toNat = s.tcnt.toNat + 1 := by
              simp only [clock, BitVec.toNat_add]
              have : (1 : U8).toNat = 1 := rfl
              omega
            omega
          · rw [← hb]
            rw [ht] at h4
            by_cases h1k : k = 1
            · simp only [h1k, beq_self_eq_true, if_true]
              simp only [Bool.false_eq_true, if_false] at h4
              omega
            · have e : (clock s).tcnt.toNat = s.tcnt.toNat + 1 := by
                simp only [clock, BitVec.toNat_add]
                have : (1 : U8).toNat = 1 := rfl
                omega
              have : (k == 1) = false := by simpa using h1k
              rw [this]
              simp only [Bool.false_eq_true, if_false] at h4 ⊢
              omega
        · intro h
          rw [← hb] at h
          have h1k : k ≠ 1 := by simpa using h
          have e : (clock s).tcnt.toNat = s.tcnt.toNat + 1 := by
            simp only [clock, BitVec.toNat_add]
            have : (1 : U8).toNat = 1 := rfl
            omega
          unfold rest
          omega
        · simp only [late, hb]
    | isr =>
      cases ht : s.tov with
      | false =>
        obtain ⟨n', a, b', d⟩ := ih s n c x ⟨h1, h2, h3, h4⟩ k hk
        have e : run (.isr :: l) s = run l s := by simp [run, move, ht]
        have e' : clocks (.isr :: l) = clocks l := by simp [clocks]
        have e2 : late false k (.isr :: l) = late false k l := by simp [late]
        rw [e, e', e2]
        rw [ht] at b'
        exact ⟨n', a, b', fun hcb hb => d hcb (fun b hm => hb b (by simp [hm]))⟩
      | true =>
        have et : Tick.isr THRESHOLD s.t = if n % 10 = 9 then (⟨0, s.t.tick + 1⟩, true) else (⟨s.t.intr + 1, s.t.tick⟩, false) := by
          unfold Tick.isr THRESHOLD
          have : (10 : U8).toNat = 10 := rfl
          have e : (s.t.intr + 1).toNat = n % 10 + 1 := by
            simp only [BitVec.toNat_add, h1]
            have : (1 : U8).toNat = 1 := rfl
            omega
          by_cases h9 : n % 10 = 9
          · have : (10 : U8) ≤ s.t.intr + 1 := by rw [BitVec.le_def]; omega
            simp only [this, h9, if_true]
          · have : ¬ (10 : U8) ≤ s.t.intr + 1 := by rw [BitVec.le_def]; omega
            simp only [this, h9, if_false]
        have hi : Inv (isr s).1 (n + 1) c x := by
          refine ⟨?_, ?_, fun _ => by simp only [isr, PRELOAD]; decide, ?_⟩
          · simp only [isr, et]
            split
            · show 0 = _; omega
            · dsimp only
              have e : (s.t.intr + 1).toNat = n % 10 + 1 := by
                simp only [BitVec.toNat_add, h1]
                have : (1 : U8).toNat = 1 := rfl
                omega
              omega
          · simp only [isr, et]
            split
            · dsimp only
              rw [h2, show (n + 1) / 10 = n / 10 + 1 by omega]
              exact (BitVec.ofNat_add ..).symm
            · dsimp only
              rw [h2, show (n + 1) / 10 = n / 10 by omega]
          · rw [ht] at h4
            simp only [if_true] at h4
            show c = 200 * (n + 1) + x + if false then 200 else PRELOAD.toNat - 56
            have : PRELOAD.toNat = 56 := rfl
            rw [this]
            simp only [Bool.false_eq_true, if_false]
            omega
        obtain ⟨n', a, b', d⟩ := ih (isr s).1 (n + 1) c x hi 200 (fun _ => rfl)
        have e' : clocks (.isr :: l) = clocks l := by simp [clocks]
        have e2 : late true k (.isr :: l) = late (isr s).1.tov 200 l := by simp [late, isr]
        refine ⟨n', by omega, ?_, ?_⟩
        · rw [e', e2]
          simp only [run, move, ht, if_true]
          exact b'
        · intro hcb hb
          have := d hcb (fun b hm => hb b (by simp [hm]))
          simp only [run, move, ht, if_true]
          rw [this]
          simp only [isr, et, hcb]
          split
          · show 1 + _ = _; omega
          · show 0 + _ = _; omega

/-- C106, the clock of the timer: the prescaler divides the clock of the CPU so that 2000 clocks are a millisecond. -/
theorem C106_clock : (divider PRESCALER).map (CPU / · / 1000) = some 2000 := by decide

/-- C106, partial: in every history, the time which has passed is a tick of 1 ms (2000 clocks) for each call of the callback, and the time by which the
interrupts were late, and up to one more tick.  So no tick is ever too short; and interrupts which are served in time give exactly
a call per millisecond, for ever.  The tick counter counts the ticks modulo 256.  Missing: late interrupts, see `C106_drift_violated`. -/
theorem C106_tick_partial (l : List Move) (h : ∀ b, Move.set b ∈ l → b = true) :
    let r := run (.set true :: l) init
    2000 * r.2 + late false 200 l ≤ clocks l ∧ clocks l ≤ 2000 * (r.2 + 1) + late false 200 l ∧
      getTickCount r.1 = BitVec.ofNat 8 r.2 := by
  obtain ⟨n, -, h1, h2⟩ := run_inv l (setCallback true init) 0 0 0 ⟨rfl, rfl, fun _ => (by decide), by decide⟩ 200 (fun _ => rfl)
  have h2 := h2 rfl h
  have e : run (.set true :: l) init = run l (setCallback true init) := by simp [run, move]
  rw [e]
  dsimp only
  rw [h2]
  have e' : (setCallback true init).tov = false := rfl
  rw [e'] at h1
  obtain ⟨a, b, d, g⟩ := h1
  generalize (run l (setCallback true init)).1 = s at *
  have hc := s.tcnt.isLt
  refine ⟨?_, ?_, ?_⟩
  · omega
  · split at g
    · omega
    · have := d (by simpa using ‹¬ s.tov = true›)
      omega
  · unfold getTickCount; rw [b]; simp

/-- One interrupt which is served one clock (half a microsecond) after it is due. -/
def lateOnce : List Move := List.replicate 201 .clock ++ [.isr]

theorem clock_run (k : Nat) (s : State) (l : List Move) (h : s.tov = false) (hk : s.tcnt.toNat + k ≤ 255) :
    run (List.replicate k .clock ++ l) s = run l { s with tcnt := s.tcnt + BitVec.ofNat 8 k } := by
  induction k generalizing s with
  | zero => simp
  | succ k ih =>
    have h1 : (1 : U8).toNat = 1 := rfl
    have e : clock s = { s with tcnt := s.tcnt + 1 } := by
      simp only [clock, h, Bool.false_or]
      have : (s.tcnt == 255) = false := by
        simp only [beq_eq_false_iff_ne, ne_eq, BitVec.toNat_eq]
        have : (255 : U8).toNat = 255 := rfl
        omega
      rw [this]
    rw [List.replicate_succ, List.cons_append, run]
    simp only [move, Nat.zero_add]
    have e2 := ih (s := { s with tcnt := s.tcnt + 1 }) h (by simp only [BitVec.toNat_add]; omega)
    rw [e]
    refine (show (_, _) = run (List.replicate k .clock ++ l) { s with tcnt := s.tcnt + 1 } from rfl).trans (e2.trans ?_)
    have e3 : s.tcnt + 1 + BitVec.ofNat 8 k = s.tcnt + BitVec.ofNat 8 (k + 1) := by
      rw [BitVec.add_assoc, Nat.add_comm k 1, BitVec.ofNat_add]
      rfl
    dsimp only
    rw [e3]

theorem lateOnce_run (s : State) (h : s.tov = false) (h' : s.tcnt = 56) (l : List Move) :
    run (lateOnce ++ l) s = ((run l (isr s).1).1, (isr s).2.toNat + (run l (isr s).1).2) := by
  have e : lateOnce ++ l = List.replicate 199 .clock ++ (.clock :: .clock :: .isr :: l) := by
    rw [lateOnce, show 201 = 199 + 2 by rfl, ← List.replicate_append_replicate, List.append_assoc, List.append_assoc]
    rfl
  rw [e, clock_run 199 s _ h (by rw [h']; decide)]
  simp only [run, move, clock, h, h']
  simp only [show ((false || (56 + BitVec.ofNat 8 199 : U8) == 255) || (56 + BitVec.ofNat 8 199 + 1 : U8) == 255) = true by decide, if_true,
    Nat.zero_add]
  rfl

/-- C106 does not hold: the interrupt stores the preload instead of adding it, so that each delay of an interrupt makes the clock slow for good.
With a delay of half a microsecond, `n` ticks take `n * 1.005` ms. -/
theorem C106_drift_violated (n : Nat) :
    ∃ l, (∀ b, Move.set b ∈ l → b = true) ∧ clocks l = 2010 * n ∧ (run (.set true :: l) init).2 = n := by
  have key : ∀ n, (∀ b, Move.set b ∉ (List.replicate n lateOnce).flatten) ∧ clocks (List.replicate n lateOnce).flatten = 201 * n ∧
      late false 200 (List.replicate n lateOnce).flatten = n := by
    intro n
    induction n with
    | zero => simp [clocks, late]
    | succ n ih =>
      rw [List.replicate_succ, List.flatten_cons]
      refine ⟨?_, ?_, ?_⟩
      · intro b hb
        rcases List.mem_append.1 hb with h | h
        · rcases List.mem_append.1 h with h | h
          · cases (List.mem_replicate.1 h).2
          · simp at h
        · exact ih.1 b h
      · have : clocks lateOnce = 201 := by decide +kernel
        unfold clocks at this ih ⊢
        rw [List.countP_append, this, ih.2.1]
        omega
      · have hl : ∀ k j l, j ≤ k → 0 < j → late false k (List.replicate j Move.clock ++ l) = late (k == j) (k - j) l := by
          intro k j l
          induction j generalizing k with
          | zero => intro _ h; cases h
          | succ j ihj =>
            intro h1 _
            rw [List.replicate_succ, List.cons_append]
            simp only [late]
            by_cases hj : j = 0
            · subst hj; rfl
            · have hk : (k == 1) = false := by simp; omega
              rw [hk, ihj (k - 1) (by omega) (by omega)]
              rw [show k - 1 - j = k - (j + 1) by omega]
              congr 1
              rw [Bool.eq_iff_iff]
              simp only [beq_iff_eq]
              omega
        have e : lateOnce ++ (List.replicate n lateOnce).flatten =
            List.replicate 200 .clock ++ (.clock :: .isr :: (List.replicate n lateOnce).flatten) := by
          rw [lateOnce, show 201 = 200 + 1 by rfl, ← List.replicate_append_replicate, List.append_assoc, List.append_assoc]
          rfl
        rw [e, hl 200 200 _ (by omega) (by omega)]
        simp only [beq_self_eq_true, late, ih.2.2]
        omega
  have runs : ∀ n m s, s.tov = false → s.tcnt = 56 → s.cb = true → s.t.intr.toNat = m % 10 →
      (run (List.replicate n lateOnce).flatten s).2 = (n + m) / 10 - m / 10 := by
    intro n
    induction n with
    | zero => intro m s _ _ _ _; simp [run]
    | succ n ih =>
      intro m s h1 h2 h3 h4
      rw [List.replicate_succ, List.flatten_cons, lateOnce_run s h1 h2]
      have et : Tick.isr THRESHOLD s.t = if m % 10 = 9 then (⟨0, s.t.tick + 1⟩, true) else (⟨s.t.intr + 1, s.t.tick⟩, false) := by
        unfold Tick.isr THRESHOLD
        have : (10 : U8).toNat = 10 := rfl
        have e : (s.t.intr + 1).toNat = m % 10 + 1 := by
          simp only [BitVec.toNat_add, h4]
          have : (1 : U8).toNat = 1 := rfl
          omega
        by_cases h9 : m % 10 = 9
        · have : (10 : U8) ≤ s.t.intr + 1 := by rw [BitVec.le_def]; omega
          simp only [this, h9, if_true]
        · have : ¬ (10 : U8) ≤ s.t.intr + 1 := by rw [BitVec.le_def]; omega
          simp only [this, h9, if_false]
      have hi : (isr s).1.t.intr.toNat = (m + 1) % 10 := by
        simp only [isr, et]
        split
        · show 0 = _; omega
        · dsimp only
          simp only [BitVec.toNat_add, h4]
          have : (1 : U8).toNat = 1 := rfl
          omega
      have := ih (m + 1) (isr s).1 rfl rfl h3 hi
      rw [this]
      simp only [isr, et, h3]
      split
      · show 1 + _ = _; omega
      · show 0 + _ = _; omega
  refine ⟨(List.replicate (10 * n) lateOnce).flatten, fun b hb => absurd hb ((key _).1 b), ?_, ?_⟩
  · rw [(key _).2.1]; omega
  · have e : run (.set true :: (List.replicate (10 * n) lateOnce).flatten) init = run (List.replicate (10 * n) lateOnce).flatten (setCallback true init) := by
      simp [run, move]
    rw [e, runs (10 * n) 0 _ rfl rfl rfl rfl]
    omega

/-! ### Concrete cases -/

/-- An interrupt which is served at once. -/
def inTime : List Move := List.replicate 200 .clock ++ [.isr]

-- Ten interrupts served in time: one tick of one millisecond.
set_option maxRecDepth 100000 in
example : let l := (List.replicate 10 inTime).flatten
    clocks l = 2000 ∧ late false 200 l = 0 ∧ (run (.set true :: l) init).2 = 1 ∧ ∀ b, Move.set b ∈ l → b = true := by
  refine ⟨by decide, by decide +kernel, by decide +kernel, ?_⟩
  intro b hb
  simp [inTime] at hb

-- Without a callback none is called.
set_option maxRecDepth 100000 in
example : (run (List.replicate 10 inTime).flatten init).2 = 0 := by decide +kernel

-- An interrupt which is blocked for longer than a whole period: the second overflow is lost, which is counted as lateness.
set_option maxRecDepth 100000 in
example : let l := List.replicate 500 .clock ++ [.isr]
    late false 200 l = 300 ∧ (run l init).1 = ⟨56, false, false, ⟨1, 0⟩⟩ := by decide +kernel

end Vscp.TimerDrvProps
