/-
Clock of the example: C61.
-/
import Verif.Spec.Driver

namespace Vscp.ClockProps
open Vscp.Driver Vscp.Spec.Drv Clock

theorem add_toNat16 (a b : U16) : (a + b).toNat = (a.toNat + b.toNat) % 65536 := BitVec.toNat_add a b

theorem inc_toNat {a : U8} (h : a.toNat < 60) : (a + 1).toNat = a.toNat + 1 := by
  rw [BitVec.toNat_add]
  show (a.toNat + 1) % 256 = _
  omega

/-- C61: the time of the day stays valid, for every period. -/
theorem C61_range (p : U16) (s : State) (h : valid s.t) : valid (process p s).t := by
  obtain ⟨h1, h2, h3, h4⟩ := h
  have e1 := inc_toNat h2
  have e2 := inc_toNat h3
  have e3 := inc_toNat (a := s.t.h) (by omega)
  have z : (0 : U8).toNat = 0 := rfl
  have z' : (0 : U16).toNat = 0 := rfl
  unfold process
  simp only
  split
  · split
    · split
      · split
        · exact ⟨by simp, by simp, by simp, by simp⟩
        · exact ⟨by simp, by simp, by simp, by dsimp only; omega⟩
      · exact ⟨by simp, by simp, by dsimp only; omega, h4⟩
    · exact ⟨by simp, by dsimp only; omega, h3, h4⟩
  · exact ⟨by show (s.t.ms + p).toNat < 1000; omega, h2, h3, h4⟩

/-- Setting the clock to a valid time keeps it valid. -/
theorem C61_set_range (t : Time) (s : State) (h : valid t) : valid (set t s).t := h

/-- What the clock shows, in milliseconds; it counts 256 days. -/
def shown (s : State) : Nat := total s % (256 * 86400000)

/-- C61, partial: if the period divides a second and the milliseconds are a multiple of it, no time is lost: the clock advances by the period.  Missing: other periods, see
`C61_lost_violated`. -/
theorem C61_advance_partial (p : U16) (s : State) (h : valid s.t) (hd : p.toNat ∣ 1000) (hm : p.toNat ∣ s.t.ms.toNat) :
    shown (process p s) = (shown s + p.toNat) % (256 * 86400000) ∧ p.toNat ∣ (process p s).t.ms.toNat := by
  obtain ⟨h1, h2, h3, h4⟩ := h
  have e1 := inc_toNat h2
  have e2 := inc_toNat h3
  have e3 := inc_toNat (a := s.t.h) (by omega)
  have hp : p.toNat ≤ 1000 := Nat.le_of_dvd (by omega) hd
  have ea : (s.t.ms + p).toNat = s.t.ms.toNat + p.toNat := by rw [add_toNat16]; omega
  have z : (0 : U8).toNat = 0 := rfl
  have z' : (0 : U16).toNat = 0 := rfl
  have hsum : p.toNat ∣ s.t.ms.toNat + p.toNat := Nat.dvd_add hm (Nat.dvd_refl _)
  have hday : (s.day + 1).toNat = (s.day.toNat + 1) % 256 := BitVec.toNat_add _ _
  have hfull : 1000 ≤ s.t.ms.toNat + p.toNat → s.t.ms.toNat + p.toNat = 1000 := by
    intro hge
    obtain ⟨a, ha⟩ := hd
    obtain ⟨b, hb⟩ := hm
    rw [ha, hb] at hge
    rw [ha] at h1
    rw [hb] at h1 ⊢
    have hlt : b < a := Nat.lt_of_mul_lt_mul_left h1
    have hle : p.toNat * b + p.toNat ≤ p.toNat * a := by
      rw [← Nat.mul_succ]
      exact Nat.mul_le_mul_left _ hlt
    omega
  unfold process shown total toMs
  simp only
  split
  · rename_i hge
    have := hfull (by omega)
    split
    · split
      · split
        · refine ⟨?_, by rw [z']; exact Nat.dvd_zero _⟩
          dsimp only; rw [z, z', hday]; omega
        · refine ⟨?_, by rw [z']; exact Nat.dvd_zero _⟩
          dsimp only; rw [z, z']; omega
      · refine ⟨?_, by rw [z']; exact Nat.dvd_zero _⟩
        dsimp only; rw [z, z']; omega
    · refine ⟨?_, by rw [z']; exact Nat.dvd_zero _⟩
      dsimp only; rw [z']; omega
  · refine ⟨?_, by rw [ea]; exact hsum⟩
    dsimp only; rw [ea]; omega

/-- C61, partial: after the initialisation the clock shows the sum of the periods, if the (constant) period divides a second. -/
theorem C61_keeps_partial (p : U16) (hd : p.toNat ∣ 1000) (k : Nat) :
    shown (Nat.repeat (process p) k init) = k * p.toNat % (256 * 86400000) := by
  have key : ∀ k, valid (Nat.repeat (process p) k init).t ∧ p.toNat ∣ (Nat.repeat (process p) k init).t.ms.toNat ∧
      shown (Nat.repeat (process p) k init) = k * p.toNat % (256 * 86400000) := by
    intro k
    induction k with
    | zero =>
      simp only [Nat.repeat]
      refine ⟨?_, ?_, ?_⟩
      · unfold valid; decide
      · exact Nat.dvd_zero _
      · rw [Nat.zero_mul]; decide
    | succ k ih =>
      obtain ⟨h1, h2, h3⟩ := ih
      obtain ⟨h4, h5⟩ := C61_advance_partial p _ h1 hd h2
      refine ⟨C61_range p _ h1, h5, ?_⟩
      rw [Nat.repeat, h4, h3, Nat.add_mul k 1 p.toNat, Nat.one_mul, Nat.mod_add_mod]
  exact (key k).2.2

/-- C61 is violated: elapsed time is lost if the period does not divide a second: after four periods of 300 ms the clock shows one second. -/
theorem C61_lost_violated : valid init.t ∧ shown (Nat.repeat (process 300) 4 init) = 1000 := by
  unfold valid
  decide

/-! ### Differences -/

theorem digit_eq {now old ov : Nat} (h1 : now < 60) (h2 : old < 60) (h3 : ov ≤ 1) :
    (digit now old ov).1.toNat + old + ov = now + 60 * (digit now old ov).2 ∧ (digit now old ov).2 ≤ 1 ∧
    (digit now old ov).1.toNat < 60 := by
  unfold digit
  split
  · simp only [BitVec.toNat_ofInt]
    refine ⟨?_, by omega, ?_⟩ <;> omega
  · simp only [BitVec.toNat_ofInt]
    refine ⟨?_, by omega, ?_⟩ <;> omega

/-- The result is always the difference of the chosen timestamps, counted in a ring of 60 hours. -/
theorem diff_ring (ts1 ts2 : Time) (h1 : valid ts1) (h2 : valid ts2) :
    toMs (calculateDiff ts1 ts2) = (216000000 + toMs (order ts1 ts2).2 - toMs (order ts1 ts2).1) % 216000000 := by
  have ho : valid (order ts1 ts2).1 ∧ valid (order ts1 ts2).2 := by
    unfold order
    repeat' split
    all_goals exact ⟨by assumption, by assumption⟩
  generalize hold : (order ts1 ts2).1 = old at ho
  generalize hnow : (order ts1 ts2).2 = now at ho
  obtain ⟨⟨a1, a2, a3, a4⟩, b1, b2, b3, b4⟩ := ho
  unfold calculateDiff toMs
  simp only [hold, hnow]
  generalize hms : (if now.ms.toNat < old.ms.toNat then (BitVec.ofInt 16 (1000 - ↑old.ms.toNat + ↑now.ms.toNat), 1)
    else (BitVec.ofInt 16 (↑now.ms.toNat - ↑old.ms.toNat), 0) : U16 × Nat) = ms
  have hm : ms.1.toNat + old.ms.toNat = now.ms.toNat + 1000 * ms.2 ∧ ms.2 ≤ 1 ∧ ms.1.toNat < 1000 := by
    rw [← hms]
    split
    · simp only [BitVec.toNat_ofInt]; omega
    · simp only [BitVec.toNat_ofInt]; omega
  obtain ⟨s1, s2, s3⟩ := digit_eq b2 a2 hm.2.1
  obtain ⟨m1, m2, m3⟩ := digit_eq b3 a3 s2
  obtain ⟨r1, r2, r3⟩ := digit_eq (now := now.h.toNat) (old := old.h.toNat) (by omega) (by omega) m2
  omega

/-- The timestamps for which the difference is right. -/
def Right (ts1 ts2 : Time) : Prop :=
  ts1 = ts2 ∨ ts1.h.toNat < ts2.h.toNat ∨
  (ts1.h = ts2.h ∧ ts1.m.toNat < ts2.m.toNat ∧ (ts1.s.toNat > ts2.s.toNat ∨ ts1.ms.toNat > ts2.ms.toNat)) ∨
  (ts1.h = ts2.h ∧ ts1.m = ts2.m ∧ ts1.s.toNat < ts2.s.toNat ∧ ts1.ms.toNat > ts2.ms.toNat) ∨
  (ts1.h.toNat > ts2.h.toNat ∧ ts1.m.toNat ≤ ts2.m.toNat ∧ ts1.s.toNat ≤ ts2.s.toNat ∧ ts1.ms.toNat ≤ ts2.ms.toNat)

/-- The distance of two timestamps of a day in milliseconds. -/
def distance (ts1 ts2 : Time) : Nat := (toMs ts1 - toMs ts2) + (toMs ts2 - toMs ts1)

/-- C61, partial: the difference is the distance in milliseconds for exactly these timestamps; in particular whenever the hour of the first one is less
than the hour of the second one.  Missing: all the others, see `C61_diff_violated`. -/
theorem C61_diff_partial (ts1 ts2 : Time) (h1 : valid ts1) (h2 : valid ts2) :
    toMs (calculateDiff ts1 ts2) = distance ts1 ts2 ↔ Right ts1 ts2 := by
  rw [diff_ring ts1 ts2 h1 h2]
  have heq : ts1 = ts2 ↔ ts1.h.toNat = ts2.h.toNat ∧ ts1.m.toNat = ts2.m.toNat ∧ ts1.s.toNat = ts2.s.toNat ∧ ts1.ms.toNat = ts2.ms.toNat := by
    constructor
    · intro e; subst e; exact ⟨rfl, rfl, rfl, rfl⟩
    · intro ⟨a, b, d, e⟩
      cases ts1; cases ts2
      simp only [Time.mk.injEq]
      exact ⟨BitVec.eq_of_toNat_eq e, BitVec.eq_of_toNat_eq d, BitVec.eq_of_toNat_eq b, BitVec.eq_of_toNat_eq a⟩
  have hh : ts1.h = ts2.h ↔ ts1.h.toNat = ts2.h.toNat := BitVec.toNat_eq
  have hm : ts1.m = ts2.m ↔ ts1.m.toNat = ts2.m.toNat := BitVec.toNat_eq
  unfold Right distance
  rw [heq, hh, hm]
  obtain ⟨a1, a2, a3, a4⟩ := h1
  obtain ⟨b1, b2, b3, b4⟩ := h2
  unfold order toMs
  split
  · simp only; omega
  · split
    · simp only; omega
    · split
      · simp only; omega
      · split
        · simp only; omega
        · simp only; omega

/-- C61 is violated: two seconds between 0:00:05 and 0:00:03, in whatever order, are reported as 59:59:58. -/
theorem C61_diff_violated :
    calculateDiff ⟨0, 5, 0, 0⟩ ⟨0, 3, 0, 0⟩ = ⟨0, 58, 59, 59⟩ ∧ calculateDiff ⟨0, 3, 0, 0⟩ ⟨0, 5, 0, 0⟩ = ⟨0, 58, 59, 59⟩ := by
  decide

/-! ### Concrete cases -/

-- Shortly before midnight of day 255.
example : let s : State := ⟨⟨750, 59, 59, 23⟩, 255⟩
    (250 : U16).toNat ∣ 1000 ∧ (250 : U16).toNat ∣ s.t.ms.toNat ∧ process 250 s = ⟨⟨0, 0, 0, 0⟩, 0⟩ := by decide
example : valid (⟨750, 59, 59, 23⟩ : Time) := by unfold valid; decide

-- From 22:59:59.900 to 23:00:00.100 it is 200 ms.
example : calculateDiff ⟨900, 59, 59, 22⟩ ⟨100, 0, 0, 23⟩ = ⟨200, 0, 0, 0⟩ ∧ distance ⟨900, 59, 59, 22⟩ ⟨100, 0, 0, 23⟩ = 200 := by decide
example : Right ⟨900, 59, 59, 22⟩ ⟨100, 0, 0, 23⟩ := .inr (.inl (by decide))

end Vscp.ClockProps
