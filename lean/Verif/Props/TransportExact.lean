/-
Property theorems: exactly for which configurations own events are looped back (C65), and how many of them can wait.
-/
import Verif.Props.Transport

namespace Vscp.Transport
open Vscp.Spec Vscp.Util M

/-- The number of slots which are left of the configured ones when the number of bytes of the storage is cut to 8 bit. -/
def slots (c : Cfg) : Nat := c.loopbackNum * c.sizeofMsg % 256 / c.sizeofMsg

theorem slots_le (c : Cfg) (h1 : 1 ≤ c.sizeofMsg) : slots c ≤ c.loopbackNum := by
  have : slots c ≤ c.loopbackNum * c.sizeofMsg / c.sizeofMsg := Nat.div_le_div_right (Nat.mod_le _ _)
  rwa [Nat.mul_div_cancel _ h1] at this

theorem slots_lt (c : Cfg) : slots c < 256 :=
  Nat.lt_of_le_of_lt (Nat.div_le_self _ _) (Nat.mod_lt _ (by omega))

/-- The node with the slots which are left as the configured ones. -/
def left (c : Ctx) : Ctx := { c with loopbackNum := slots c.toCfg }

theorem left_write (c : Ctx) (m : Msg) (w : W) : writeMessage (left c) m w = writeMessage c m w := rfl
theorem left_read (c : Ctx) (rx : Option Msg) (w : W) : readMessage (left c) rx w = readMessage c rx w := rfl

theorem left_run (c : Ctx) (ops : List TOp) (w : W) : tRun (left c) ops w = tRun c ops w := by
  induction ops generalizing w with
  | nil => rfl
  | cons op ops ih =>
    have hs : tStep (left c) op w = tStep c op w := by cases op <;> rfl
    simp only [tRun, hs, ih]

theorem left_drain (c : Ctx) (n : Nat) (w : W) : drain (left c) n w = drain c n w := by
  induction n generalizing w with
  | zero => rfl
  | succ n ih => simp only [drain, left_read, ih]

theorem init_run (c : Ctx) (hl : c.loopback = true) (h1 : 1 ≤ c.sizeofMsg) (h2 : c.sizeofMsg ≤ 255) (w : W) :
    init c w = ((), setLb w ⟨List.replicate c.loopbackNum default, 1, BitVec.ofNat 8 (slots c.toCfg), 0, 0⟩) := by
  have hs : (BitVec.ofNat 8 c.sizeofMsg).toNat = c.sizeofMsg := by simp; omega
  have hne : BitVec.ofNat 8 c.sizeofMsg ≠ 0 := by
    intro h; rw [h] at hs; simp at hs; omega
  have ht : (BitVec.ofNat 8 (c.loopbackNum * c.sizeofMsg)).toNat = c.loopbackNum * c.sizeofMsg % 256 := by simp
  simp only [init, hl, if_true, cyclicBufferInit, hne, if_false, hs, ht, modify_run, setLb, slots]

theorem init_left (c : Ctx) (hl : c.loopback = true) (h1 : 1 ≤ c.sizeofMsg) (h2 : c.sizeofMsg ≤ 255) (h3 : 1 ≤ slots c.toCfg) (w : W) :
    LbHolds (left c).toCfg (init c w).2 [] := by
  have h4 := slots_lt c.toCfg
  have h5 := slots_le c.toCfg h1
  rw [init_run c hl h1 h2 w]
  have h6 : (left c).toCfg.loopbackNum = slots c.toCfg := rfl
  refine ⟨?_, rfl, by rw [h6]; exact h3, ?_, ?_, ?_, ?_, ?_⟩
  · rw [h6]; simp [setLb]; omega
  · rw [h6]; simp [setLb]; exact h5
  · rw [h6]; simp [setLb]; omega
  · rw [h6]; simp; omega
  · simp [setLb]
  · intro i hi; simp at hi

/-- C65, how many events can wait: whatever is configured, as long as one slot is left, after any history an own event is looped
back exactly if it is a candidate and less events wait than there are slots left, less one. -/
theorem C65_room_exact (c : Ctx) (hl : c.loopback = true) (h1 : 1 ≤ c.sizeofMsg) (h2 : c.sizeofMsg ≤ 255) (h3 : 1 ≤ slots c.toCfg)
    (w0 : W) (ops : List TOp) (m : Msg) :
    let w := (tRun c ops (init c w0).2).2
    let waiting := drain c (slots c.toCfg) w
    drain c (slots c.toCfg) (writeMessage c m w).2 =
      if LoopbackCandidate m ∧ waiting.length < slots c.toCfg - 1 then waiting ++ [m] else waiting := by
  intro w waiting
  have hl' : (left c).loopback = true := hl
  have h6 : (left c).toCfg.loopbackNum = slots c.toCfg := rfl
  obtain ⟨rest, e1, -, -⟩ := tRun_fifo hl' ops (init c w0).2 [] (init_left c hl h1 h2 h3 w0)
  rw [left_run] at e1
  have hq := e1.hq
  simp only [List.length_map, h6] at hq
  have hw : waiting = rest := by
    have := drain_spec hl' (slots c.toCfg) _ _ e1 (by omega)
    rwa [left_drain] at this
  obtain ⟨e2, -⟩ := writeMessage_queue hl' e1 m
  rw [hw]
  have := drain_spec hl' (slots c.toCfg) _ _ e2 (by
    rw [h6]
    split
    · simp; omega
    · omega)
  rwa [left_drain, h6] at this

/-- C65, exactly: whatever is configured, an own event which is a candidate is delivered by the next read after the initialisation
exactly if two slots are left, and sending it is undefined behaviour exactly if none is left. -/
theorem C65_loopback_exact (c : Ctx) (hl : c.loopback = true) (h1 : 1 ≤ c.sizeofMsg) (h2 : c.sizeofMsg ≤ 255) (w : W) (hu : w.ub = false)
    (m : Msg) (hm : LoopbackCandidate m) :
    let w' := (writeMessage c m (init c w).2).2
    (w'.ub = true ↔ slots c.toCfg = 0) ∧ (slots c.toCfg = 1 → (readMessage c none w').1 = none) ∧
    (2 ≤ slots c.toCfg → (readMessage c none w').1 = some m) := by
  intro w'
  have hl' : (left c).loopback = true := hl
  have h6 : (left c).toCfg.loopbackNum = slots c.toCfg := rfl
  have hcan : c.loopback = true ∧ m.cls ≠ CLASS_PROTOCOL ∧ m.cls ≠ CLASS_LOG := ⟨hl, hm.2.1, hm.2.2⟩
  have hub : w'.ub = (loopPut m (init c w).2).2.ub := by
    show (writeMessage c m (init c w).2).2.ub = _
    rw [writeMessage_run, if_neg (fun h => h.2 hm.1), countErr_eq, beforeTx, if_pos hcan]
  by_cases h0 : slots c.toCfg = 0
  · refine ⟨⟨fun _ => h0, fun _ => ?_⟩, fun h => by omega, fun h => by omega⟩
    rw [hub, init_run c hl h1 h2, h0]
    simp only [loopPut, bind_run, get_run, setLb]
    rfl
  · have h3 : 1 ≤ slots c.toCfg := by omega
    have hi := init_left c hl h1 h2 h3 w
    obtain ⟨cb, hp, -⟩ := loopPut_spec hi m
    have hi2 : (init c w).2.ub = false := by rw [init_run c hl h1 h2]; exact hu
    have hq := (writeMessage_queue hl' hi m).1
    refine ⟨⟨fun h => ?_, fun h => absurd h h0⟩, fun h => ?_, fun h => ?_⟩
    · rw [hub, hp] at h
      have : (setLb (init c w).2 cb).ub = (init c w).2.ub := rfl
      rw [this, hi2] at h
      cases h
    · rw [if_neg (by rw [h6, h]; simp)] at hq
      obtain ⟨cb2, hr, -⟩ := readMessage_spec hl' hq none
      rw [left_read] at hr
      show (readMessage c none w').1 = none
      rw [show w' = (writeMessage (left c) m (init c w).2).2 from rfl, hr]; rfl
    · rw [if_pos ⟨hm, by rw [h6]; simp; omega⟩] at hq
      obtain ⟨cb2, hr, -⟩ := readMessage_spec hl' hq none
      rw [left_read] at hr
      show (readMessage c none w').1 = some m
      rw [show w' = (writeMessage (left c) m (init c w).2).2 from rfl, hr]; rfl

/-- 15, 16, 17 and 20 elements of 16 bytes: 15, 0, 1 and 4 slots are left. -/
example : (slots { Ex.ctx.toCfg with loopbackNum := 15, sizeofMsg := 16 }, slots { Ex.ctx.toCfg with loopbackNum := 16, sizeofMsg := 16 },
    slots { Ex.ctx.toCfg with loopbackNum := 17, sizeofMsg := 16 }, slots { Ex.ctx.toCfg with loopbackNum := 20, sizeofMsg := 16 }) =
    (15, 0, 1, 4) := by decide

end Vscp.Transport
