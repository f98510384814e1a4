/-
C76 – C79: tick timer, button, periodic part and status lamp of the main programs of the examples.
-/
import Verif.Spec.Main
import Verif.Props.Driver

namespace Vscp.MainProps
open Vscp.Driver Vscp.Spec.Main

/-! ### C76: ticks and waiting -/

section Tick

theorem isr_eq (thr : U8) (s : Tick.State) (h1 : s.intr.toNat < thr.toNat) :
    (s.intr.toNat + 1 = thr.toNat → Tick.isr thr s = (⟨0, s.tick + 1⟩, true)) ∧
    (s.intr.toNat + 1 < thr.toNat → Tick.isr thr s = (⟨s.intr + 1, s.tick⟩, false) ∧ (s.intr + 1).toNat = s.intr.toNat + 1) := by
  have ht := thr.isLt
  have h : (s.intr + 1).toNat = s.intr.toNat + 1 := by rw [BitVec.toNat_add]; simp; omega
  constructor
  · intro e
    simp only [Tick.isr]
    rw [if_pos (by rw [BitVec.le_def, h]; omega)]
  · intro e
    simp only [Tick.isr]
    rw [if_neg (by rw [BitVec.le_def, h]; omega)]
    exact ⟨rfl, h⟩

/-- C76: with a threshold of `thr` interrupts per tick, the callback is called once in `thr` interrupts, for ever; the tick counter counts the calls (modulo 256). -/
theorem C76_rate (thr : U8) (h : thr ≠ 0) (n : Nat) :
    (Tick.isrs thr n).2 = n / thr.toNat ∧ (Tick.isrs thr n).1.tick = BitVec.ofNat 8 (n / thr.toNat) := by
  have hp : 0 < thr.toNat := by
    rcases Nat.eq_zero_or_pos thr.toNat with h0 | h0
    · exact absurd (BitVec.eq_of_toNat_eq h0) h
    · exact h0
  suffices H : (Tick.isrs thr n).1.intr.toNat = n % thr.toNat ∧ (Tick.isrs thr n).2 = n / thr.toNat ∧ (Tick.isrs thr n).1.tick = BitVec.ofNat 8 (n / thr.toNat) from H.2
  induction n with
  | zero => simp [Tick.isrs, Tick.init]
  | succ n ih =>
    obtain ⟨i1, i2, i3⟩ := ih
    have hlt := Nat.mod_lt n hp
    obtain ⟨e1, e2⟩ := isr_eq thr (Tick.isrs thr n).1 (by omega)
    rw [i1] at e1 e2
    have hm : thr.toNat * (n / thr.toNat) + n % thr.toNat = n := Nat.div_add_mod n thr.toNat
    by_cases hc : n % thr.toNat + 1 = thr.toNat
    · simp only [Tick.isrs, e1 hc, i2, i3, Bool.toNat_true]
      have h1 : n + 1 = thr.toNat * (n / thr.toNat + 1) := by rw [Nat.mul_add, Nat.mul_one]; omega
      rw [h1, Nat.mul_mod_right, Nat.mul_div_cancel_left _ hp]
      exact ⟨rfl, rfl, by rw [BitVec.ofNat_add]; rfl⟩
    · obtain ⟨e3, e4⟩ := e2 (by omega)
      simp only [Tick.isrs, e3, i2, i3, Bool.toNat_false, Nat.add_zero]
      have h1 : n + 1 = (n % thr.toNat + 1) + thr.toNat * (n / thr.toNat) := by omega
      have h2 : (n + 1) / thr.toNat = n / thr.toNat := by
        conv => lhs; rw [h1]
        rw [Nat.add_mul_div_left _ _ hp, Nat.div_eq_of_lt (by omega), Nat.zero_add]
      have h3 : (n + 1) % thr.toNat = n % thr.toNat + 1 := by
        conv => lhs; rw [h1]
        rw [Nat.add_mul_mod_self_left, Nat.mod_eq_of_lt (by omega)]
      rw [h2, h3]
      exact ⟨e4, rfl, rfl⟩

example : (Tick.isrs 10 25).2 = 2 := by decide

/-- `k` ticks since the call at tick `t` for `s` ticks. -/
structure SleepInv (t s : U8) (k : Nat) (x : Sleep.State) : Prop where
  tick : x.tick.toNat = (t.toNat + k) % 256
  pc : match x.pc with
    | .check e | .wrap e => e = t + s
    | .wait e => e = t + s ∧ (s.toNat ≤ k ∨ (x.tick.toNat + (s.toNat - k) = e.toNat))
    | .done => s.toNat ≤ k

theorem SleepInv.start (t s : U8) : SleepInv t s 0 (Sleep.start t s) :=
  ⟨by have := t.isLt; simp only [Sleep.start]; omega, rfl⟩

theorem SleepInv.move {t s : U8} {k : Nat} {x : Sleep.State} (h : SleepInv t s k x) (mv : Sleep.Move) :
    SleepInv t s (if mv = .tick then k + 1 else k) (Sleep.move x mv) := by
  obtain ⟨tick, pc⟩ := x
  obtain ⟨h1, h2⟩ := h
  have ht := t.isLt
  have hs := s.isLt
  have hk := tick.isLt
  have he : (t + s).toNat = (t.toNat + s.toNat) % 256 := by rw [BitVec.toNat_add]
  dsimp only at h1
  cases mv with
  | tick =>
    rw [if_pos rfl]
    have h3 : (tick + 1).toNat = (tick.toNat + 1) % 256 := by rw [BitVec.toNat_add]; rfl
    refine ⟨by simp only [Sleep.move]; omega, ?_⟩
    simp only [Sleep.move]
    cases pc with
    | check e => exact h2
    | wrap e => exact h2
    | wait e =>
      obtain ⟨h4, h5⟩ := h2
      refine ⟨h4, ?_⟩
      dsimp only at h5 ⊢
      have := e.isLt
      omega
    | done => dsimp only at h2 ⊢; omega
  | step =>
    rw [if_neg (by simp)]
    cases pc with
    | check e =>
      have h2 : e = t + s := h2
      refine ⟨h1, ?_⟩
      simp only [Sleep.move, Sleep.step]
      by_cases hc : e < tick
      · rw [if_pos hc]; exact h2
      · rw [if_neg hc]
        refine ⟨h2, ?_⟩
        rw [BitVec.lt_def, h2, he] at hc
        rw [h2, he]
        omega
    | wrap e =>
      have h2 : e = t + s := h2
      refine ⟨h1, ?_⟩
      simp only [Sleep.move, Sleep.step]
      by_cases hc : e < tick
      · rw [if_pos hc]; exact h2
      · rw [if_neg hc]
        refine ⟨h2, ?_⟩
        rw [BitVec.lt_def, h2, he] at hc
        rw [h2, he]
        omega
    | wait e =>
      obtain ⟨h4, h5⟩ := h2
      refine ⟨h1, ?_⟩
      simp only [Sleep.move, Sleep.step]
      by_cases hc : tick < e
      · rw [if_pos hc]; exact ⟨h4, h5⟩
      · rw [if_neg hc]
        rw [BitVec.lt_def] at hc
        dsimp only at h5 ⊢
        omega
    | done => exact ⟨h1, h2⟩

theorem SleepInv.run {t s : U8} : ∀ (l : List Sleep.Move) {k : Nat} {x : Sleep.State}, SleepInv t s k x → SleepInv t s (k + sleepTicks l) (Sleep.run l x)
  | [], k, x, h => h
  | mv :: l, k, x, h => by
    have := SleepInv.run l (h.move mv)
    have e : (if mv = .tick then k + 1 else k) + sleepTicks l = k + sleepTicks (mv :: l) := by
      cases mv <;> simp [sleepTicks] <;> omega
    rw [e] at this
    exact this

/-- C76: `timerDrv_sleep` does not return before the number of ticks it is called for has passed, under every schedule of ticks and read accesses. -/
theorem C76_atleast (t s : U8) (l : List Sleep.Move) (h : (Sleep.run l (Sleep.start t s)).pc = .done) : s.toNat ≤ sleepTicks l := by
  have := ((SleepInv.start t s).run l).pc
  rw [h] at this
  dsimp only at this
  omega

/-- C76 does not hold: called for 0 ticks, the function waits for 256 ticks if a tick comes behind the calculation of the end: it does not return before. -/
theorem C76_zero_violated (t : U8) (l : List Sleep.Move) (h : (Sleep.run (.tick :: l) (Sleep.start t 0)).pc = .done) : 255 ≤ sleepTicks l := by
  have e : Sleep.run (.tick :: l) (Sleep.start t 0) = Sleep.run l (Sleep.start (t + 1) 255) := by
    simp only [Sleep.run, List.foldl_cons, Sleep.move, Sleep.start]
    congr 3
    rw [BitVec.add_assoc]
    rfl
  rw [e] at h
  exact C76_atleast (t + 1) 255 l h

/-- `k` polls behind each tick. -/
def beats (ks : List Nat) : List Sleep.Move := ks.flatMap fun k => .tick :: List.replicate k .step

theorem steps_done (k : Nat) (x : Sleep.State) (h : x.pc = .done) : Sleep.run (List.replicate k .step) x = x := by
  obtain ⟨a, b⟩ := x
  dsimp only at h
  subst h
  induction k with
  | zero => rfl
  | succ k ih => exact ih

/-- Steps at the end: the function returns. -/
theorem steps_end {k : Nat} (hk : 3 ≤ k) (tick : U8) (pc : Sleep.Pc) (h : pc = .check tick ∨ pc = .wrap tick ∨ pc = .wait tick ∨ pc = .done) :
    (Sleep.run (List.replicate k .step) ⟨tick, pc⟩).pc = .done := by
  obtain ⟨j, rfl⟩ : ∃ j, k = j + 3 := ⟨k - 3, by omega⟩
  have hn : ¬ tick < tick := by rw [BitVec.lt_def]; omega
  have e : Sleep.run (List.replicate (j + 3) .step) ⟨tick, pc⟩ = Sleep.run (List.replicate j .step) ⟨tick, .done⟩ := by
    have : List.replicate (j + 3) Sleep.Move.step = .step :: .step :: .step :: List.replicate j .step := rfl
    rw [this]
    simp only [Sleep.run, List.foldl_cons]
    rcases h with rfl | rfl | rfl | rfl <;> simp [Sleep.move, Sleep.step]
  rw [e, steps_done _ _ rfl]

/-- `r` ticks are left, 0 < `r` < 256: the function waits. -/
def Waits (r : Nat) (x : Sleep.State) : Prop :=
  ∃ e : U8, e.toNat = (x.tick.toNat + r) % 256 ∧ (x.pc = .check e ∨ x.pc = .wrap e ∨ (x.pc = .wait e ∧ x.tick < e))

theorem Waits.step {r : Nat} (hr : 0 < r ∧ r < 256) {x : Sleep.State} (h : Waits r x) : Waits r (Sleep.move x .step) := by
  obtain ⟨tick, pc⟩ := x
  obtain ⟨e, h1, h2⟩ := h
  have hk := tick.isLt
  have he := e.isLt
  dsimp only at h1 h2
  have key : ∀ p : Sleep.Pc, p = (if e < tick then .wrap e else .wait e) → Waits r ⟨tick, p⟩ := by
    intro p hp
    by_cases hc : e < tick
    · rw [if_pos hc] at hp; exact ⟨e, h1, Or.inr (Or.inl hp)⟩
    · rw [if_neg hc] at hp
      refine ⟨e, h1, Or.inr (Or.inr ⟨hp, ?_⟩)⟩
      rw [BitVec.lt_def] at hc ⊢
      dsimp only
      omega
  rcases h2 with rfl | rfl | ⟨rfl, h3⟩
  · exact key _ rfl
  · exact key _ rfl
  · refine ⟨e, h1, Or.inr (Or.inr ⟨?_, h3⟩)⟩
    simp only [Sleep.move, Sleep.step, if_pos h3]

theorem Waits.steps {r : Nat} (hr : 0 < r ∧ r < 256) : ∀ (k : Nat) {x : Sleep.State}, Waits r x → Waits r (Sleep.run (List.replicate k .step) x)
  | 0, _, h => h
  | k + 1, _, h => Waits.steps hr k (h.step hr)

theorem Waits.tick {r : Nat} (hr : 0 < r) (hr' : r + 1 < 256) {x : Sleep.State} (h : Waits (r + 1) x) : Waits r (Sleep.move x .tick) := by
  obtain ⟨tick, pc⟩ := x
  obtain ⟨e, h1, h2⟩ := h
  have hk := tick.isLt
  have he := e.isLt
  have h3 : (tick + 1).toNat = (tick.toNat + 1) % 256 := by rw [BitVec.toNat_add]; rfl
  dsimp only at h1 h2
  refine ⟨e, by simp only [Sleep.move, h3]; omega, ?_⟩
  rcases h2 with rfl | rfl | ⟨rfl, h4⟩
  · exact Or.inl rfl
  · exact Or.inr (Or.inl rfl)
  · refine Or.inr (Or.inr ⟨rfl, ?_⟩)
    rw [BitVec.lt_def] at h4 ⊢
    simp only [Sleep.move, h3]
    omega

theorem beats_run : ∀ (ks : List Nat) {r : Nat} (_ : r < 256) {x : Sleep.State}, (∀ k ∈ ks, 3 ≤ k) → Waits r x → 0 < r →
    (ks.length < r → Waits (r - ks.length) (Sleep.run (beats ks) x)) ∧ (ks.length = r → (Sleep.run (beats ks) x).pc = .done)
  | [], r, _, x, _, h, h0 => ⟨fun _ => h, fun e => by simp at e; omega⟩
  | k :: ks, r, hr, x, hk, h, h0 => by
    have e : Sleep.run (beats (k :: ks)) x = Sleep.run (beats ks) (Sleep.run (List.replicate k .step) (Sleep.move x .tick)) := by
      simp [beats, Sleep.run, List.foldl_append]
    rw [e]
    by_cases h1 : r = 1
    · subst h1
      refine ⟨fun h => by simp at h, fun hl => ?_⟩
      have : ks = [] := by simpa using hl
      subst this
      show (Sleep.run (List.replicate k .step) (Sleep.move x .tick)).pc = .done
      obtain ⟨tick, pc⟩ := x
      obtain ⟨e, h2, h3⟩ := h
      dsimp only at h2 h3
      have he : e = tick + 1 := BitVec.eq_of_toNat_eq (by rw [h2, BitVec.toNat_add]; rfl)
      subst he
      exact steps_end (hk k (List.mem_cons_self ..)) (tick + 1) pc
        (h3.elim Or.inl fun h => h.elim (fun h => Or.inr (Or.inl h)) fun h => Or.inr (Or.inr (Or.inl h.1)))
    · obtain ⟨q, rfl⟩ : ∃ q, r = q + 1 := ⟨r - 1, by omega⟩
      have hq : 0 < q := by omega
      have h2 := (h.tick hq hr).steps ⟨hq, by omega⟩ k
      obtain ⟨h3, h4⟩ := beats_run ks (by omega) (fun k h => hk k (List.mem_cons_of_mem _ h)) h2 hq
      refine ⟨fun hl => ?_, fun hl => h4 (by simp at hl; omega)⟩
      have := h3 (by simp at hl; omega)
      rwa [show q + 1 - (k :: ks).length = q - ks.length by simp]

/-- C76 (part): called for `s` > 0 ticks, the function returns within tick number `s`, if the counter is read at least three times per tick. -/
theorem C76_atmost_partial (t s : U8) (hs : s ≠ 0) (k : Nat) (ks : List Nat) (hk : ∀ k ∈ ks, 3 ≤ k) (hl : ks.length = s.toNat) :
    (Sleep.run (List.replicate k .step ++ beats ks) (Sleep.start t s)).pc = .done := by
  have h0 : 0 < s.toNat := by
    rcases Nat.eq_zero_or_pos s.toNat with h | h
    · exact absurd (BitVec.eq_of_toNat_eq h) hs
    · exact h
  have hw : Waits s.toNat (Sleep.start t s) := ⟨t + s, by simp only [Sleep.start, BitVec.toNat_add], Or.inl rfl⟩
  have := (beats_run ks s.isLt hk (hw.steps ⟨h0, s.isLt⟩ k) h0).2 hl
  simpa [Sleep.run, List.foldl_append] using this

/-- 3 ticks from tick 254 on, over the overflow. -/
example : (Sleep.run (List.replicate 1 .step ++ beats [3, 3, 3]) (Sleep.start 254 3)).pc = .done := by decide

end Tick

/-! ### C77: the button for the initialisation of the segment -/

section Button
open Button

theorem held_append (a b : List Ev) : held (a ++ b) = b.foldl heldStep (held a) := by
  simp only [held, List.foldl_append]

/-- Was the initialisation started since the button was released? -/
def fired (t : List Ev) : Bool :=
  t.foldl (fun k e => match e with | .tick true => k | .tick false => false | .segInit => true) false

/-- The state behind `t`. -/
structure BtnInv (s : Button.State) (t : List Ev) : Prop where
  cnt : s.cnt.toNat = min (held t) 100
  pressed : s.pressed = decide (101 ≤ held t)
  fired : fired t = true → s.pressed = true ∧ (s.pc = .remember ∨ s.last = true)

theorem btnInv_tick {s : Button.State} {t : List Ev} (h : BtnInv s t) (b : Bool) : BtnInv (isrAvr b s) (t ++ [.tick b]) := by
  obtain ⟨h1, h2, h3⟩ := h
  cases b with
  | false =>
    have e : isrAvr false s = { s with cnt := 0, pressed := false } := rfl
    have e1 : held (t ++ [.tick false]) = 0 := by rw [held_append]; rfl
    have e2 : MainProps.fired (t ++ [.tick false]) = false := by rw [MainProps.fired, List.foldl_append]; rfl
    rw [e]
    exact ⟨by rw [e1]; rfl, by rw [e1]; rfl, by rw [e2]; simp⟩
  | true =>
    have e1 : held (t ++ [.tick true]) = held t + 1 := by rw [held_append]; rfl
    have e2 : MainProps.fired (t ++ [.tick true]) = MainProps.fired t := by rw [MainProps.fired, List.foldl_append]; rfl
    have hd : DEBOUNCE.toNat = 100 := rfl
    simp only [isrAvr, Bool.true_eq_false, if_false]
    by_cases hc : DEBOUNCE ≤ s.cnt
    · rw [if_pos hc]
      rw [BitVec.le_def, hd] at hc
      refine ⟨by rw [e1]; dsimp only; omega, ?_, fun hf => ?_⟩
      · rw [e1]; dsimp only; symm; rw [decide_eq_true_eq]; omega
      · rw [e2] at hf
        exact ⟨rfl, (h3 hf).2⟩
    · rw [if_neg hc]
      rw [BitVec.le_def, hd] at hc
      refine ⟨?_, ?_, fun hf => ?_⟩
      · rw [e1]; dsimp only; rw [BitVec.toNat_add, show (1 : U8).toNat = 1 from rfl]; omega
      · rw [e1]; dsimp only; rw [h2, decide_eq_decide]; omega
      · rw [e2] at hf
        exact h3 hf

theorem btnInv_step {s : Button.State} {t : List Ev} (h : BtnInv s t) : BtnInv (Button.step s).1 (t ++ (Button.step s).2) := by
  obtain ⟨h1, h2, h3⟩ := h
  obtain ⟨cnt, pressed, last, pc⟩ := s
  cases pc with
  | remember =>
    simp only [Button.step, List.append_nil]
    exact ⟨h1, h2, fun hf => ⟨(h3 hf).1, Or.inr (h3 hf).1⟩⟩
  | check =>
    simp only [Button.step]
    by_cases hc : (pressed && !last) = true
    · rw [if_pos hc]
      have e1 : held (t ++ [.segInit]) = held t := by rw [held_append]; rfl
      simp only [Bool.and_eq_true] at hc
      exact ⟨by rw [e1]; exact h1, by rw [e1]; exact h2, fun _ => ⟨hc.1, Or.inl rfl⟩⟩
    · rw [if_neg hc, List.append_nil]
      exact ⟨h1, h2, fun hf => ⟨(h3 hf).1, Or.inl rfl⟩⟩

theorem btnInv_init : BtnInv Button.init [] := ⟨rfl, rfl, fun h => by cases h⟩

/-- The state in which the initialisation is started. -/
theorem btn_split : ∀ (l : List Move) {s : Button.State} {t a b : List Ev}, BtnInv s t → (Button.run isrAvr l s).2 = a ++ .segInit :: b →
    ∃ s', BtnInv s' (t ++ a) ∧ s'.pc = .check ∧ s'.pressed = true ∧ s'.last = false
  | [], s, t, a, b, _, h => by simp [Button.run] at h
  | .tick x :: l, s, t, a, b, hi, h => by
    simp only [Button.run, Button.move, List.cons_append, List.nil_append] at h
    cases a with
    | nil => simp at h
    | cons y a =>
      simp only [List.cons_append, List.cons.injEq] at h
      obtain ⟨rfl, h⟩ := h
      have := btn_split l (btnInv_tick hi x) h
      rwa [List.append_assoc] at this
  | .step :: l, s, t, a, b, hi, h => by
    have hs := btnInv_step hi
    simp only [Button.run, Button.move] at h
    by_cases he : (Button.step s).2 = []
    · rw [he] at h hs
      rw [List.append_nil] at hs
      exact btn_split l hs h
    · obtain ⟨cnt, pressed, last, pc⟩ := s
      cases pc with
      | remember => simp [Button.step] at he
      | check =>
        by_cases hc : (pressed && !last) = true
        · have e : (Button.step ⟨cnt, pressed, last, .check⟩).2 = [.segInit] := by simp only [Button.step, if_pos hc]
          rw [e] at h hs
          simp only [Bool.and_eq_true, Bool.not_eq_true'] at hc
          cases a with
          | nil => exact ⟨⟨cnt, pressed, last, .check⟩, by rw [List.append_nil]; exact hi, rfl, hc.1, hc.2⟩
          | cons y a =>
            simp only [List.cons_append, List.nil_append, List.cons.injEq] at h
            obtain ⟨rfl, h⟩ := h
            have := btn_split l hs h
            rwa [List.append_assoc] at this
        · exact absurd (by simp only [Button.step, if_neg hc]) he

/-- C77: the initialisation of the segment is started only if the button has been pressed for more than 100 ticks without a break, under every interrupt schedule. -/
theorem C77_only (l : List Move) (a b : List Ev) (h : (Button.run isrAvr l Button.init).2 = a ++ .segInit :: b) : 101 ≤ held a := by
  obtain ⟨s, hi, _, hp, _⟩ := btn_split l btnInv_init h
  have := hi.pressed
  rw [hp] at this
  simpa using this.symm

/-- C77: between two starts of the initialisation the button is released, under every interrupt schedule. -/
theorem C77_once (l : List Move) (a m b : List Ev) (h : (Button.run isrAvr l Button.init).2 = a ++ .segInit :: (m ++ .segInit :: b)) : .tick false ∈ m := by
  rw [show a ++ Ev.segInit :: (m ++ .segInit :: b) = (a ++ .segInit :: m) ++ .segInit :: b by simp] at h
  obtain ⟨s, hi, hc, hp, hl⟩ := btn_split l btnInv_init h
  refine Decidable.byContradiction fun hm => ?_
  have : fired ([] ++ (a ++ .segInit :: m)) = true := by
    rw [List.nil_append, fired, List.foldl_append, List.foldl_cons]
    dsimp only
    clear h hi
    induction m with
    | nil => rfl
    | cons x m ih =>
      rw [List.foldl_cons]
      cases x with
      | tick b =>
        cases b with
        | true => exact ih (fun h => hm (List.mem_cons_of_mem _ h))
        | false => exact absurd (List.mem_cons_self ..) hm
      | segInit => exact ih (fun h => hm (List.mem_cons_of_mem _ h))
  have := (hi.fired this).2
  rw [hc, hl] at this
  rcases this with h | h <;> cases h

/-- Complete runs of the main loop. -/
theorem btn_steps : ∀ (k : Nat) (s : Button.State), s.pc = .check → s.last = s.pressed →
    Button.run isrAvr (List.replicate (2 * k) .step) s = (s, [])
  | 0, s, _, _ => rfl
  | k + 1, s, h1, h2 => by
    obtain ⟨cnt, pressed, last, pc⟩ := s
    dsimp only at h1 h2
    subst h1 h2
    have e : List.replicate (2 * (k + 1)) Move.step = .step :: .step :: List.replicate (2 * k) .step := by
      rw [Nat.mul_add]; rfl
    rw [e]
    simp only [Button.run, Button.move, Button.step, Bool.and_not_self, Bool.false_eq_true, if_false, List.nil_append]
    exact btn_steps k ⟨cnt, last, last, .check⟩ rfl rfl

theorem btn_steps_pos (k : Nat) (s : Button.State) (h1 : s.pc = .check) :
    Button.run isrAvr (List.replicate (2 * (k + 1)) .step) s = ({ s with last := s.pressed }, if s.pressed && !s.last then [.segInit] else []) := by
  obtain ⟨cnt, pressed, last, pc⟩ := s
  dsimp only at h1
  subst h1
  have e : List.replicate (2 * (k + 1)) Move.step = .step :: .step :: List.replicate (2 * k) .step := by
    rw [Nat.mul_add]; rfl
  rw [e]
  simp only [Button.run, Button.move, Button.step, List.nil_append]
  have := btn_steps k ⟨cnt, pressed, pressed, .check⟩ rfl rfl
  rw [this, List.append_nil]

theorem btn_append (isr : Bool → Button.State → Button.State) : ∀ (l l' : List Move) (s : Button.State),
    Button.run isr (l ++ l') s = ((Button.run isr l' (Button.run isr l s).1).1, (Button.run isr l s).2 ++ (Button.run isr l' (Button.run isr l s).1).2)
  | [], l', s => rfl
  | mv :: l, l', s => by simp only [List.cons_append, Button.run, btn_append isr l l', List.append_assoc]

theorem btn_rounds : ∀ (l : List (Bool × Nat)) (k : Nat) (s : Button.State), (∀ x ∈ l, 1 ≤ x.2) → s.pc = .check → s.last = s.pressed → s.cnt.toNat = min k 100 → s.pressed = decide (101 ≤ k) →
    (Button.run isrAvr (rounds l) s).2 = expected k (l.map (·.1))
  | [], k, s, _, _, _, _, _ => rfl
  | (b, j) :: l, k, s, hx, h1, h2, h3, h4 => by
    obtain ⟨i, rfl⟩ : ∃ i, j = i + 1 := ⟨j - 1, by have := hx _ (List.mem_cons_self ..); dsimp only at this; omega⟩
    have hx' : ∀ x ∈ l, 1 ≤ x.2 := fun x h => hx x (List.mem_cons_of_mem _ h)
    have e : rounds ((b, i + 1) :: l) = .tick b :: (List.replicate (2 * (i + 1)) .step ++ rounds l) := rfl
    have hp : (isrAvr b s).pc = .check ∧ (isrAvr b s).last = s.last := by
      simp only [isrAvr]; (repeat' split) <;> exact ⟨h1, rfl⟩
    rw [e]
    simp only [Button.run, Button.move, btn_append, btn_steps_pos i (isrAvr b s) hp.1]
    cases b with
    | false =>
      have e2 : isrAvr false s = ⟨0, false, s.last, s.pc⟩ := rfl
      have := btn_rounds l 0 ⟨0, false, false, s.pc⟩ hx' h1 rfl rfl rfl
      rw [e2]
      simp only [Bool.false_and, Bool.false_eq_true, if_false, List.nil_append, List.map_cons, expected, List.cons_append]
      rw [this]
    | true =>
      have hd : DEBOUNCE.toNat = 100 := rfl
      have hc : (isrAvr true s).cnt.toNat = min (k + 1) 100 ∧ (isrAvr true s).pressed = decide (101 ≤ k + 1) := by
        simp only [isrAvr, Bool.true_eq_false, if_false]
        by_cases hc : DEBOUNCE ≤ s.cnt
        · rw [if_pos hc]
          rw [BitVec.le_def, hd] at hc
          exact ⟨by dsimp only; omega, by dsimp only; symm; rw [decide_eq_true_eq]; omega⟩
        · rw [if_neg hc]
          rw [BitVec.le_def, hd] at hc
          refine ⟨?_, ?_⟩
          · dsimp only; rw [BitVec.toNat_add, show (1 : U8).toNat = 1 from rfl]; omega
          · dsimp only; rw [h4, decide_eq_decide]; omega
      have := btn_rounds l (k + 1) { isrAvr true s with last := (isrAvr true s).pressed } hx' hp.1 rfl hc.1 hc.2
      rw [this]
      have hif : ((isrAvr true s).pressed && !(isrAvr true s).last) = decide (k = 100) := by
        rw [hc.2, hp.2, h2, h4]
        by_cases h5 : k = 100
        · subst h5; rfl
        · by_cases h6 : 101 ≤ k
          · rw [decide_eq_true h6, decide_eq_true (by omega : 101 ≤ k + 1), decide_eq_false h5]; rfl
          · rw [decide_eq_false (by omega : ¬ 101 ≤ k + 1), decide_eq_false h5]; rfl
      rw [hif]
      simp only [List.map_cons, expected, List.cons_append, List.nil_append, decide_eq_true_eq]

/-- C77 (part): if the main loop runs at least once between two ticks, and the tick does not come between the two read accesses of the loop, the initialisation is started exactly once for each press of more than
100 ticks, at the end of tick 101. -/
theorem C77_exact_partial (l : List (Bool × Nat)) (h : ∀ x ∈ l, 1 ≤ x.2) : (Button.run isrAvr (rounds l) Button.init).2 = expected 0 (l.map (·.1)) :=
  btn_rounds l 0 Button.init h rfl rfl rfl rfl

/-- A press of 101 ticks, a release and a press of 100 ticks. -/
example : ∀ x ∈ List.replicate 101 (true, 1) ++ (false, 2) :: List.replicate 100 (true, 1), 1 ≤ x.2 := by decide +kernel
example : (expected 0 ((List.replicate 101 (true, 1) ++ (false, 2) :: List.replicate 100 (true, 1)).map (fun x : Bool × Nat => x.1))).count .segInit = 1 := by decide +kernel

/-- The tick which ends the debouncing comes between the two read accesses. -/
def edge : List Move := List.replicate 100 (.tick true) ++ [.step, .tick true, .step]

/-- C77 does not hold: if the tick which ends the debouncing comes between the two read accesses of the main loop, the initialisation is not started, however long the button is pressed. -/
theorem C77_lost_violated (l : List Move) (h : .tick false ∉ l) : .segInit ∉ (Button.run isrAvr (edge ++ l) Button.init).2 := by
  have e : Button.run isrAvr edge Button.init = (⟨100, true, true, .check⟩, List.replicate 101 (.tick true)) := by decide +kernel
  rw [btn_append, e]
  simp only [List.mem_append, List.mem_replicate, reduceCtorEq, and_false, false_or]
  suffices H : ∀ (l : List Move) (pc : Pc), .tick false ∉ l → .segInit ∉ (Button.run isrAvr l ⟨100, true, true, pc⟩).2 from H l _ h
  intro l
  induction l with
  | nil => intro pc _ h; simp [Button.run] at h
  | cons mv l ih =>
    intro pc hm
    have hm' : Move.tick false ∉ l := fun h => hm (List.mem_cons_of_mem _ h)
    cases mv with
    | tick b =>
      cases b with
      | false => exact absurd (List.mem_cons_self ..) hm
      | true =>
        have e : isrAvr true ⟨100, true, true, pc⟩ = ⟨100, true, true, pc⟩ := rfl
        simp only [Button.run, Button.move, e, List.mem_append, List.mem_singleton, reduceCtorEq, false_or]
        exact ih pc hm'
    | step =>
      cases pc with
      | check =>
        simp only [Button.run, Button.move, Button.step, Bool.not_true, Bool.and_false, Bool.false_eq_true, if_false, List.nil_append]
        exact ih _ hm'
      | remember =>
        simp only [Button.run, Button.move, Button.step, List.nil_append]
        exact ih _ hm'

/-- The button is in the other state. -/
def invMove : Move → Move
  | .tick b => .tick (!b)
  | .step => .step

def invEv : Ev → Ev
  | .tick b => .tick (!b)
  | .segInit => .segInit

/-- The ARM example takes the pressed button for released and the released button for pressed. -/
theorem arm_inverted : ∀ (l : List Move) (s : Button.State), Button.run isrArm l s = ((Button.run isrAvr (l.map invMove) s).1, (Button.run isrAvr (l.map invMove) s).2.map invEv)
  | [], s => rfl
  | .tick b :: l, s => by
    have e : isrArm b s = isrAvr (!b) s := by cases b <;> rfl
    simp only [Button.run, Button.move, List.map_cons, invMove, e, arm_inverted l, List.map_append, List.map_nil, invEv, Bool.not_not]
  | .step :: l, s => by
    have e : (Button.step s).2.map invEv = (Button.step s).2 := by
      simp only [Button.step]
      (repeat' split) <;> rfl
    simp only [Button.run, Button.move, List.map_cons, invMove, arm_inverted l, List.map_append, e]

/-- C77 does not hold for the ARM example: nobody presses the button, and the initialisation of the segment is started at tick 101 behind every start. -/
theorem C77_arm_violated (ks : List Nat) (h : ∀ k ∈ ks, 1 ≤ k) :
    (Button.run isrArm (rounds (ks.map fun k => (false, k))) Button.init).2.count .segInit = if ks.length ≤ 100 then 0 else 1 := by
  have e : (rounds (ks.map fun k => (false, k))).map invMove = rounds (ks.map fun k => (true, k)) := by
    clear h
    induction ks with
    | nil => rfl
    | cons k ks ih =>
      simp only [rounds, List.map_cons, List.flatMap_cons, List.map_append] at ih ⊢
      rw [ih]
      simp [invMove]
  rw [arm_inverted, e]
  have h2 := C77_exact_partial (ks.map fun k => (true, k)) (by
    intro x hx
    obtain ⟨k, hk, rfl⟩ := List.mem_map.1 hx
    exact h k hk)
  simp only [h2]
  have h3 : ∀ (n k : Nat), ((expected k (List.replicate n true)).map invEv).count .segInit = if 100 < k then 0 else if k + n ≤ 100 then 0 else 1 := by
    intro n
    induction n with
    | zero => intro k; simp only [List.replicate, expected, List.map_nil, List.count_nil]; (repeat' split) <;> omega
    | succ n ih =>
      intro k
      by_cases hk : k = 100
      · simp only [List.replicate, expected, hk, if_true, List.map_cons, List.map_append, List.map_nil, List.cons_append, List.nil_append, invEv, List.count_cons, ih]
        simp
      · simp only [List.replicate, expected, if_neg hk, List.map_cons, List.nil_append, invEv, List.count_cons, ih]
        simp
        (repeat' split) <;> omega
  have h4 : (ks.map fun k => (true, k)).map (·.1) = List.replicate ks.length true := by
    rw [List.map_map]; exact List.map_const' ..
  rw [h4, h3]
  simp

end Button

/-! ### C78: the timers of the framework in the main loop -/

section Loop
open MainLoop

variable {n m : Nat}

/-- The software timer of the main loop runs. -/
structure SwOk (s : MainLoop.State n m) (h1 : 1 < n) : Prop where
  auto : s.sw[1].isManual = false
  start : s.sw[1].startValue = 250
  le : s.sw[1].value.toNat ≤ 250

theorem initSw_get (h1 : 1 < n) : (initSw n)[1] = ⟨250, false, 250⟩ := by
  have e : ∀ s : SwTimer.State n, (SwTimer.start 1 250 false s)[1] = ⟨250, false, 250⟩ := by
    intro s
    unfold SwTimer.start
    rw [dif_pos (show (1 : U8).toNat < n from h1)]
    exact Vector.getElem_set_self ..
  exact e _

theorem swOk_init (h1 : 1 < n) (tm : Timer.State m) : SwOk ⟨initSw n, tm⟩ h1 := by
  have e := initSw_get h1
  exact ⟨by rw [e], by rw [e], by rw [e]; decide⟩

theorem move_tick (s : MainLoop.State n m) (h1 : 1 < n) (h : SwOk s h1) :
    SwOk (move s .tick) h1 ∧ (move s .tick).tm = s.tm ∧ (move s .tick).sw[1].value.toNat = s.sw[1].value.toNat - 1 := by
  have e : (move s .tick).sw[1] = SwTimer.tick s.sw[1] := DrvProps.swProcess_get s.sw 1 h1
  have e2 := DrvProps.swTick_other s.sw[1]
  have e3 := DrvProps.swTick_value s.sw[1]
  refine ⟨⟨by rw [e, e2.1]; exact h.auto, by rw [e, e2.2]; exact h.start, by rw [e, e3]; have := h.le; omega⟩, rfl, by rw [e, e3]⟩

theorem move_poll (s : MainLoop.State n m) (h1 : 1 < n) (h : SwOk s h1) :
    SwOk (move s .poll) h1 ∧
    (s.sw[1].value = 0 → (move s .poll).sw[1].value = 250 ∧ (move s .poll).tm = Timer.process 250 s.tm) ∧
    (s.sw[1].value ≠ 0 → move s .poll = s) := by
  have hid : ID.toNat = 1 := rfl
  by_cases hz : s.sw[1].value = 0
  · have e : SwTimer.getStatus ID s.sw = (true, s.sw.set 1 { s.sw[1] with value := s.sw[1].startValue }) := by
      simp only [SwTimer.getStatus, hid]
      rw [dif_pos h1, if_pos hz, if_pos h.auto]
    have e2 : move s .poll = ⟨s.sw.set 1 { s.sw[1] with value := s.sw[1].startValue }, Timer.process 250 s.tm⟩ := by
      simp only [move, e, if_true]
      rfl
    rw [e2]
    refine ⟨⟨?_, ?_, ?_⟩, fun _ => ⟨?_, rfl⟩, fun h => absurd hz h⟩ <;> simp only [Vector.getElem_set_self, h.auto, h.start]
    decide
  · have e : SwTimer.getStatus ID s.sw = (false, s.sw) := by
      simp only [SwTimer.getStatus, hid]
      rw [dif_pos h1, if_neg hz]
    have e2 : move s .poll = s := by simp [move, e]
    rw [e2]
    exact ⟨h, fun h => absurd h hz, fun _ => rfl⟩

/-- Timer `id` is in use with value `v`. -/
def Has (s : MainLoop.State n m) (id : U8) (v : Nat) : Prop := ∃ hlt : id.toNat < m, s.tm[id.toNat].id ≠ Timer.INVALID ∧ s.tm[id.toNat].value.toNat = v

theorem has_process {s : MainLoop.State n m} {id : U8} {v : Nat} (h : Has s id v) (s' : MainLoop.State n m) (hs : s'.tm = Timer.process 250 s.tm) : Has s' id (v - 250) := by
  obtain ⟨hlt, h1, h2⟩ := h
  refine ⟨hlt, ?_, ?_⟩
  · simp only [hs, DrvProps.process_get, Timer.tick, if_pos h1]; exact h1
  · simp only [hs, DrvProps.process_get, DrvProps.tick_value _ _ h1, h2]; rfl

theorem has_other {s : MainLoop.State n m} {id : U8} {v : Nat} (h : Has s id v) {mv : MainLoop.Move} (hc : loopConcerns id mv = false) (h1 : mv ≠ .poll) : Has (move s mv) id v := by
  obtain ⟨hlt, h2, h3⟩ := h
  cases mv with
  | tick => exact ⟨hlt, h2, h3⟩
  | poll => exact absurd rfl h1
  | start i w =>
    have hne : i.toNat ≠ id.toNat := fun e => by
      have : i = id := BitVec.eq_of_toNat_eq e
      subst this
      simp [loopConcerns] at hc
    have e : (Timer.start i w s.tm)[id.toNat] = s.tm[id.toNat] := by
      rw [DrvProps.start_get]
      rw [if_neg (fun h => hne (by first | exact h | exact h.symm))]
    exact ⟨hlt, by simp only [move]; rw [e]; exact h2, by simp only [move]; rw [e]; exact h3⟩
  | stop i =>
    have hne : i.toNat ≠ id.toNat := fun e => by
      have : i = id := BitVec.eq_of_toNat_eq e
      subst this
      simp [loopConcerns] at hc
    have e : (Timer.stop i s.tm)[id.toNat] = s.tm[id.toNat] := by
      rw [DrvProps.stop_get]
      rw [if_neg (fun h => hne (by first | exact h | exact h.symm))]
    exact ⟨hlt, by simp only [move]; rw [e]; exact h2, by simp only [move]; rw [e]; exact h3⟩

theorem swOk_other {s : MainLoop.State n m} {h1 : 1 < n} (h : SwOk s h1) {mv : MainLoop.Move} (hp : mv ≠ .poll) (ht : mv ≠ .tick) : SwOk (move s mv) h1 ∧ (move s mv).sw = s.sw := by
  cases mv with
  | tick => exact absurd rfl ht
  | poll => exact absurd rfl hp
  | start i w => exact ⟨⟨h.auto, h.start, h.le⟩, rfl⟩
  | stop i => exact ⟨⟨h.auto, h.start, h.le⟩, rfl⟩

/-- The number of periods is at most the number which fits into the time. -/
theorem loop_run (h1 : 1 < n) (id : U8) : ∀ (l : List MainLoop.Move) (s : MainLoop.State n m) (v : Nat), (∀ mv ∈ l, loopConcerns id mv = false) → SwOk s h1 → Has s id v →
    ∃ p, SwOk (run l s) h1 ∧ Has (run l s) id (v - 250 * p) ∧ 250 * p + s.sw[1].value.toNat ≤ loopTicks l + (run l s).sw[1].value.toNat
  | [], s, v, _, h, hv => ⟨0, h, hv, by simp [loopTicks, run]⟩
  | mv :: l, s, v, hc, h, hv => by
    have hc' : ∀ mv ∈ l, loopConcerns id mv = false := fun mv h => hc mv (List.mem_cons_of_mem _ h)
    have hr : run (mv :: l) s = run l (move s mv) := rfl
    by_cases ht : mv = .tick
    · subst ht
      obtain ⟨a1, a2, a3⟩ := move_tick s h1 h
      obtain ⟨p, b1, b2, b3⟩ := loop_run h1 id l (move s .tick) v hc' a1 (has_other hv rfl (by simp))
      refine ⟨p, b1, b2, ?_⟩
      rw [hr]
      have : loopTicks (.tick :: l) = loopTicks l + 1 := by simp [loopTicks]
      omega
    · have hl : loopTicks (mv :: l) = loopTicks l := by simp only [loopTicks]; rw [List.count_cons_of_ne ht]
      by_cases hp : mv = .poll
      · subst hp
        obtain ⟨a1, a2, a3⟩ := move_poll s h1 h
        by_cases hz : s.sw[1].value = 0
        · obtain ⟨a4, a5⟩ := a2 hz
          obtain ⟨p, b1, b2, b3⟩ := loop_run h1 id l (move s .poll) (v - 250) hc' a1 (has_process hv _ a5)
          refine ⟨p + 1, b1, by rw [hr, show v - 250 * (p + 1) = v - 250 - 250 * p by omega]; exact b2, ?_⟩
          rw [hr, hl]
          rw [a4, show (250 : U8).toNat = 250 from rfl] at b3
          rw [hz, show (0 : U8).toNat = 0 from rfl]
          omega
        · have e := a3 hz
          rw [hr, hl, e]
          exact loop_run h1 id l s v hc' h hv
      · obtain ⟨a1, a2⟩ := swOk_other h hp ht
        obtain ⟨p, b1, b2, b3⟩ := loop_run h1 id l (move s mv) v hc' a1 (has_other hv (hc mv (List.mem_cons_self ..)) hp)
        refine ⟨p, b1, b2, ?_⟩
        rw [hr, hl]
        rw [a2] at b3
        exact b3

theorem swOk_run (h1 : 1 < n) : ∀ (l : List MainLoop.Move) (s : MainLoop.State n m), SwOk s h1 → SwOk (run l s) h1
  | [], _, h => h
  | mv :: l, s, h => by
    refine swOk_run h1 l (move s mv) ?_
    by_cases ht : mv = .tick
    · subst ht; exact (move_tick s h1 h).1
    · by_cases hp : mv = .poll
      · subst hp; exact (move_poll s h1 h).1
      · exact (swOk_other h hp ht).1

/-- Timer `id` remains in use. -/
theorem used_run (id : U8) : ∀ (l : List MainLoop.Move) (s : MainLoop.State n m), (∃ v, Has s id v) → ∃ v, Has (run l s) id v
  | [], _, h => h
  | mv :: l, s, h => by
    refine used_run id l (move s mv) ?_
    obtain ⟨v, hlt, h2, h3⟩ := h
    cases mv with
    | tick => exact ⟨v, hlt, h2, h3⟩
    | poll =>
      simp only [move]
      split
      · refine ⟨_, hlt, ?_, rfl⟩
        simp only [DrvProps.process_get, Timer.tick]
        rw [if_pos h2]; exact h2
      · exact ⟨v, hlt, h2, h3⟩
    | start i w =>
      refine ⟨_, hlt, ?_, rfl⟩
      simp only [move]
      rw [DrvProps.start_get]
      split <;> exact h2
    | stop i =>
      refine ⟨_, hlt, ?_, rfl⟩
      simp only [move]
      rw [DrvProps.stop_get]
      split <;> exact h2

theorem has_start {s : MainLoop.State n m} {id : U8} (h : ∃ v, Has s id v) (v : U16) : Has (move s (.start id v)) id v.toNat := by
  obtain ⟨_, hlt, h2, _⟩ := h
  have e : (Timer.start id v s.tm)[id.toNat] = { s.tm[id.toNat] with value := v } := by
    rw [DrvProps.start_get, if_pos rfl]
  exact ⟨hlt, by simp only [move]; rw [e]; exact h2, by simp only [move]; rw [e]⟩

theorem getStatus_has {s : MainLoop.State n m} {id : U8} {v : Nat} (h : Has s id v) : Timer.getStatus id s.tm = decide (0 < v) := by
  obtain ⟨hlt, _, h3⟩ := h
  rw [Timer.getStatus, dif_pos hlt, h3]

/-- The node behind the initialisation: timers created by the history `ops`, software timers started. -/
def ready (n : Nat) (tm : Timer.State m) : MainLoop.State n m := ⟨initSw n, tm⟩

/-- C78 (part): a timer of the framework, started for `v` ms, does not expire more than 250 ms too early, however the main loop is scheduled. -/
theorem C78_early_partial (h1 : 1 < n) (hm : m < 256) (tm : Timer.State m) (ops : List Timer.Op) (id : U8) (hid : id ∈ Timer.ids tm ops) (hv : id ≠ 0xFF)
    (l0 l : List MainLoop.Move) (v : U16) (hc : ∀ mv ∈ l, loopConcerns id mv = false)
    (he : Timer.getStatus id (run (l0 ++ .start id v :: l) (ready n (Timer.run tm ops))).tm = false) :
    v.toNat ≤ loopTicks l + 250 := by
  obtain ⟨hlt, hu⟩ := DrvProps.given hm tm ops id hid hv
  have hr : run (l0 ++ .start id v :: l) (ready n (Timer.run tm ops)) = run l (move (run l0 (ready n (Timer.run tm ops))) (.start id v)) := by
    simp [run, List.foldl_append]
  have s0 := swOk_run h1 l0 (ready n (Timer.run tm ops)) (swOk_init h1 _)
  have u0 := used_run id l0 (ready n (Timer.run tm ops)) ⟨_, hlt, hu, rfl⟩
  obtain ⟨p, a1, a2, a3⟩ := loop_run h1 id l _ _ hc (swOk_other s0 (mv := .start id v) (by simp) (by simp)).1 (has_start u0 v)
  rw [hr, getStatus_has a2] at he
  have he := of_decide_eq_false he
  have := a1.le
  omega

/-- A tick which is not followed by another one is followed by a poll, or the software timer has not expired. -/
def Due (s : MainLoop.State n m) (h1 : 1 < n) (l : List MainLoop.Move) : Prop :=
  1 ≤ s.sw[1].value.toNat ∨ .poll ∈ l.takeWhile (· ≠ .tick)

theorem due_cons (h1 : 1 < n) {mv : MainLoop.Move} {l : List MainLoop.Move} {s : MainLoop.State n m} (h : SwOk s h1) (hp : polled (mv :: l) = true) (hd : Due s h1 (mv :: l)) :
    polled l = true ∧ Due (move s mv) h1 l := by
  by_cases ht : mv = .tick
  · subst ht
    simp only [polled, Bool.and_eq_true, List.contains_iff_mem] at hp
    exact ⟨hp.2, Or.inr hp.1⟩
  · have hp' : polled l = true := by cases mv <;> first | exact absurd rfl ht | exact hp
    refine ⟨hp', ?_⟩
    by_cases hq : mv = .poll
    · subst hq
      obtain ⟨a1, a2, a3⟩ := move_poll s h1 h
      by_cases hz : s.sw[1].value = 0
      · exact Or.inl (by rw [(a2 hz).1]; decide)
      · rw [a3 hz]
        refine Or.inl ?_
        rcases Nat.eq_zero_or_pos s.sw[1].value.toNat with h0 | h0
        · exact absurd (BitVec.eq_of_toNat_eq h0) hz
        · exact h0
    · rcases hd with hd | hd
      · exact Or.inl (by rw [(swOk_other h hq ht).2]; exact hd)
      · refine Or.inr ?_
        rw [List.takeWhile_cons_of_pos (by simpa using ht)] at hd
        rcases List.mem_cons.1 hd with h | h
        · exact absurd h.symm hq
        · exact h

theorem due_run (h1 : 1 < n) : ∀ (l l' : List MainLoop.Move) {s : MainLoop.State n m}, SwOk s h1 → polled (l ++ l') = true → Due s h1 (l ++ l') →
    polled l' = true ∧ Due (run l s) h1 l'
  | [], _, _, _, hp, hd => ⟨hp, hd⟩
  | mv :: l, l', s, h, hp, hd => by
    obtain ⟨a, b⟩ := due_cons h1 h hp hd
    exact due_run h1 l l' (swOk_run h1 [mv] s h) a b

/-- With a poll behind each tick no time is lost. -/
theorem loop_polled (h1 : 1 < n) (id : U8) : ∀ (l : List MainLoop.Move) (s : MainLoop.State n m) (v : Nat), (∀ mv ∈ l, loopConcerns id mv = false) → SwOk s h1 → Has s id v →
    polled l = true → Due s h1 l →
    ∃ p, Has (run l s) id (v - 250 * p) ∧ 250 * p + s.sw[1].value.toNat = loopTicks l + (run l s).sw[1].value.toNat ∧ 1 ≤ (run l s).sw[1].value.toNat
  | [], s, v, _, h, hv, _, hd => ⟨0, hv, by simp [loopTicks, run], by rcases hd with h | h; exact h; simp at h⟩
  | mv :: l, s, v, hc, h, hv, hp, hd => by
    have hc' : ∀ mv ∈ l, loopConcerns id mv = false := fun mv h => hc mv (List.mem_cons_of_mem _ h)
    have hr : run (mv :: l) s = run l (move s mv) := rfl
    obtain ⟨hp', hd'⟩ := due_cons h1 h hp hd
    by_cases ht : mv = .tick
    · subst ht
      obtain ⟨a1, a2, a3⟩ := move_tick s h1 h
      obtain ⟨p, b2, b3, b4⟩ := loop_polled h1 id l (move s .tick) v hc' a1 (has_other hv rfl (by simp)) hp' hd'
      refine ⟨p, b2, ?_, b4⟩
      rw [hr]
      have : loopTicks (.tick :: l) = loopTicks l + 1 := by simp [loopTicks]
      have hx : 1 ≤ s.sw[1].value.toNat := by
        rcases hd with h | h
        · exact h
        · simp at h
      omega
    · have hl : loopTicks (mv :: l) = loopTicks l := by simp only [loopTicks]; rw [List.count_cons_of_ne ht]
      by_cases hq : mv = .poll
      · subst hq
        obtain ⟨a1, a2, a3⟩ := move_poll s h1 h
        by_cases hz : s.sw[1].value = 0
        · obtain ⟨a4, a5⟩ := a2 hz
          obtain ⟨p, b2, b3, b4⟩ := loop_polled h1 id l (move s .poll) (v - 250) hc' a1 (has_process hv _ a5) hp' hd'
          refine ⟨p + 1, by rw [hr, show v - 250 * (p + 1) = v - 250 - 250 * p by omega]; exact b2, ?_, b4⟩
          rw [hr, hl]
          rw [a4, show (250 : U8).toNat = 250 from rfl] at b3
          rw [hz, show (0 : U8).toNat = 0 from rfl]
          omega
        · have e := a3 hz
          rw [e] at hd'
          rw [hr, hl, e]
          exact loop_polled h1 id l s v hc' h hv hp' hd'
      · obtain ⟨a1, a2⟩ := swOk_other h hq ht
        obtain ⟨p, b2, b3, b4⟩ := loop_polled h1 id l (move s mv) v hc' a1 (has_other hv (hc mv (List.mem_cons_self ..)) hq) hp' hd'
        refine ⟨p, b2, ?_, b4⟩
        rw [hr, hl]
        rw [a2] at b3
        exact b3

/-- C78 (part): if the main loop runs in every millisecond, a timer of the framework expires at most 249 ms too late. -/
theorem C78_late_partial (h1 : 1 < n) (hm : m < 256) (tm : Timer.State m) (ops : List Timer.Op) (id : U8) (hid : id ∈ Timer.ids tm ops) (hv : id ≠ 0xFF)
    (l0 l : List MainLoop.Move) (v : U16) (hc : ∀ mv ∈ l, loopConcerns id mv = false) (hp : polled (l0 ++ .start id v :: l) = true)
    (ht : v.toNat + 249 ≤ loopTicks l) :
    Timer.getStatus id (run (l0 ++ .start id v :: l) (ready n (Timer.run tm ops))).tm = false := by
  obtain ⟨hlt, hu⟩ := DrvProps.given hm tm ops id hid hv
  have hr : run (l0 ++ .start id v :: l) (ready n (Timer.run tm ops)) = run l (move (run l0 (ready n (Timer.run tm ops))) (.start id v)) := by
    simp [run, List.foldl_append]
  have s0 := swOk_run h1 l0 (ready n (Timer.run tm ops)) (swOk_init h1 _)
  have u0 := used_run id l0 (ready n (Timer.run tm ops)) ⟨_, hlt, hu, rfl⟩
  have hd : Due (ready n (Timer.run tm ops)) h1 (l0 ++ .start id v :: l) := by
    left
    show 1 ≤ ((initSw n)[1]).value.toNat
    rw [initSw_get h1]; decide
  obtain ⟨p1, d1⟩ := due_run h1 l0 (.start id v :: l) (swOk_init h1 _) hp hd
  obtain ⟨p2, d2⟩ := due_cons h1 s0 p1 d1
  obtain ⟨a1, a2⟩ := swOk_other s0 (mv := .start id v) (by simp) (by simp)
  obtain ⟨p, b1, b2, b3⟩ := loop_polled h1 id l _ _ hc a1 (has_start u0 v) p2 d2
  rw [hr, getStatus_has b1, decide_eq_false_iff_not]
  have := a1.le
  omega

/-- C78 does not hold: a timer started for 250 ms may expire at once. -/
theorem C78_violated (h1 : 1 < n) (hm : 0 < m) (hm' : m < 256) (tm : Timer.State m) :
    Timer.getStatus 0 (run (List.replicate 250 .tick ++ [.start 0 250, .poll]) (ready n (Timer.run tm [.create]))).tm = false := by
  have hid : (0 : U8) ∈ Timer.ids tm [.create] := by
    rw [DrvProps.C58_ids hm']
    simp [Spec.Drv.creations, List.range_succ, hm]
  obtain ⟨hlt, hu⟩ := DrvProps.given hm' tm [.create] 0 hid (by decide)
  have key : ∀ (k : Nat) (s : MainLoop.State n m), SwOk s h1 → (run (List.replicate k .tick) s).sw[1].value.toNat = s.sw[1].value.toNat - k := by
    intro k
    induction k with
    | zero => intro s _; rfl
    | succ k ih =>
      intro s h
      obtain ⟨a1, a2, a3⟩ := move_tick s h1 h
      show (run (List.replicate k .tick) (move s .tick)).sw[1].value.toNat = _
      rw [ih _ a1, a3]; omega
  have s0 : SwOk (ready n (Timer.run tm [.create])) h1 := swOk_init h1 (Timer.run tm [.create])
  have s1 := swOk_run h1 (List.replicate 250 .tick) _ s0
  have u1 := used_run 0 (List.replicate 250 .tick) (ready n (Timer.run tm [.create])) ⟨_, hlt, hu, rfl⟩
  have k1 := key 250 _ s0
  have hz : (run (List.replicate 250 .tick) (ready n (Timer.run tm [.create]))).sw[1].value = 0 := by
    apply BitVec.eq_of_toNat_eq
    have := s0.le
    show _ = 0
    rw [k1]
    omega
  have hr : run (List.replicate 250 .tick ++ [.start 0 250, .poll]) (ready n (Timer.run tm [.create])) =
      move (move (run (List.replicate 250 .tick) (ready n (Timer.run tm [.create]))) (.start 0 250)) .poll := by
    rw [run, List.foldl_append]; rfl
  obtain ⟨a1, a2⟩ := swOk_other s1 (mv := .start 0 250) (by simp) (by simp)
  obtain ⟨b1, b2, b3⟩ := move_poll _ h1 a1
  have c := has_process (has_start u1 250) _ (b2 (by simp only [a2]; exact hz)).2
  rw [hr, getStatus_has c]
  decide

/-- The hypotheses are met: the heartbeat timer of a node with two software timers, polled in every millisecond. -/
example : polled ([.tick, .poll] ++ .start 0 1 :: (List.replicate 250 [MainLoop.Move.tick, .poll]).flatten) = true := by decide +kernel

end Loop

/-! ### C79: status lamp -/

section Lamp

theorem lamp_slow_cnt : ∀ (k : Nat) (s : Driver.Lamp.State), s.slowCnt = 0 →
    (Driver.Lamp.run (List.replicate k .blinkSlow) s).slowCnt = BitVec.ofNat 8 k ∧
    (Driver.Lamp.run (List.replicate k .blinkSlow) s).lit = (s.lit ^^ decide ((k + 3) / 4 % 2 = 1))
  | 0, s, h => ⟨h, by simp [Driver.Lamp.run]⟩
  | k + 1, s, h => by
    obtain ⟨i1, i2⟩ := lamp_slow_cnt k s h
    have e : Driver.Lamp.run (List.replicate (k + 1) .blinkSlow) s = Driver.Lamp.process .blinkSlow (Driver.Lamp.run (List.replicate k .blinkSlow) s) := by
      rw [List.replicate_succ', Driver.Lamp.run, List.foldl_append]; rfl
    rw [e]
    simp only [Driver.Lamp.process, i1, i2, ne_eq, not_true_eq_false, if_false]
    have hm : (BitVec.ofNat 8 k % 4 = 0) ↔ k % 4 = 0 := by
      rw [← BitVec.toNat_inj, BitVec.toNat_umod, BitVec.toNat_ofNat]
      show k % 256 % 4 = 0 ↔ _
      omega
    refine ⟨by rw [BitVec.ofNat_add]; rfl, ?_⟩
    by_cases hk : k % 4 = 0
    · rw [if_pos (hm.2 hk)]
      have : decide ((k + 1 + 3) / 4 % 2 = 1) = !decide ((k + 3) / 4 % 2 = 1) := by
        by_cases h : (k + 3) / 4 % 2 = 1
        · rw [decide_eq_true h, decide_eq_false (by omega)]; rfl
        · rw [decide_eq_false h, decide_eq_true (by omega)]; rfl
      rw [this]
      cases s.lit <;> cases decide ((k + 3) / 4 % 2 = 1) <;> rfl
    · rw [if_neg (fun h => hk (hm.1 h))]
      have : (k + 1 + 3) / 4 = (k + 3) / 4 := by omega
      rw [this]

/-- Behind a call for another state of the lamp the counter is reset. -/
theorem lamp_reset (ls : List Vscp.Lamp) (s : Driver.Lamp.State) (l : Vscp.Lamp) (hl : l ≠ .blinkSlow) : (Driver.Lamp.run (ls ++ [l]) s).slowCnt = 0 := by
  rw [Driver.Lamp.run, List.foldl_append]
  simp [Driver.Lamp.process, hl]

/-- C79: slow blinking: behind any history which ends with another state of the lamp, the lamp changes at the first call and then at every fourth one, for ever. -/
theorem C79_slow (ls : List Vscp.Lamp) (l : Vscp.Lamp) (hl : l ≠ .blinkSlow) (s : Driver.Lamp.State) (k : Nat) :
    (Driver.Lamp.run (ls ++ [l] ++ List.replicate k .blinkSlow) s).lit = ((Driver.Lamp.run (ls ++ [l]) s).lit ^^ decide ((k + 3) / 4 % 2 = 1)) := by
  have := (lamp_slow_cnt k (Driver.Lamp.run (ls ++ [l]) s) (lamp_reset ls s l hl)).2
  simpa [Driver.Lamp.run, List.foldl_append] using this

/-- C79: fast blinking: the lamp changes at every call. -/
theorem C79_fast (s : Driver.Lamp.State) : ∀ (k : Nat), (Driver.Lamp.run (List.replicate k .blinkFast) s).lit = (s.lit ^^ decide (k % 2 = 1))
  | 0 => by simp [Driver.Lamp.run]
  | k + 1 => by
    have e : Driver.Lamp.run (List.replicate (k + 1) .blinkFast) s = Driver.Lamp.process .blinkFast (Driver.Lamp.run (List.replicate k .blinkFast) s) := by
      rw [List.replicate_succ', Driver.Lamp.run, List.foldl_append]; rfl
    rw [e]
    simp only [Driver.Lamp.process, C79_fast s k]
    have : decide ((k + 1) % 2 = 1) = !decide (k % 2 = 1) := by
      by_cases h : k % 2 = 1
      · rw [decide_eq_true h, decide_eq_false (by omega)]; rfl
      · rw [decide_eq_false h, decide_eq_true (by omega)]; rfl
    rw [this]
    cases s.lit <;> cases decide (k % 2 = 1) <;> rfl

/-- C79: steady light, or none. -/
theorem C79_steady (ls : List Vscp.Lamp) (s : Driver.Lamp.State) :
    (Driver.Lamp.run (ls ++ [.on]) s).lit = true ∧ (Driver.Lamp.run (ls ++ [.off]) s).lit = false := by
  simp [Driver.Lamp.run, List.foldl_append, Driver.Lamp.process]

example : (List.range 10).map (fun k => (Driver.Lamp.run ([] ++ [.off] ++ List.replicate k .blinkSlow) ⟨true, 7⟩).lit) = [false, true, true, true, true, false, false, false, false, true] := by decide

end Lamp

end Vscp.MainProps
