/-
Helper lemmas for the transport layer.
-/
import Verif.Model.Transport
import Verif.Props.Util
import Verif.Spec.Transport

namespace Vscp.Transport
open Vscp.Spec Vscp.Util M

/-- The loopback storage has at least one element and not more than 255 bytes. -/
structure LoopbackCfg (c : Cfg) : Prop where
  one : 1 ≤ c.loopbackNum
  pos : 1 ≤ c.sizeofMsg
  fits : c.loopbackNum * c.sizeofMsg ≤ 255

/-- The loopback buffer holds the queue `q`. -/
def LbHolds (c : Cfg) (w : W) (q : List Msg) : Prop :=
  Rep c.loopbackNum 1 w.tp.lb (q.map fun m => [m])

/-- The world with another loopback buffer. -/
def setLb (w : W) (cb : CyclicBuffer Msg) : W := { w with tp := { w.tp with lb := cb } }

theorem loopPut_spec {c : Cfg} {w : W} {q : List Msg} (h : LbHolds c w q) (m : Msg) :
    ∃ cb, loopPut m w = ((), setLb w cb) ∧
      LbHolds c (setLb w cb) (if q.length < c.loopbackNum - 1 then q ++ [m] else q) := by
  obtain ⟨cb', hs, hr⟩ := cbStep_refines h [m] rfl (.put [m]) rfl
  simp only [cbStep, Option.bind_eq_bind] at hs
  cases hw : cyclicBufferWrite w.tp.lb [m] 1 with
  | none => rw [hw] at hs; simp at hs
  | some p =>
    obtain ⟨n, cb⟩ := p
    rw [hw] at hs
    simp only [Option.bind_some, Option.some.injEq, Prod.mk.injEq] at hs
    obtain ⟨rfl, -⟩ := hs
    refine ⟨cb, ?_, ?_⟩
    · simp only [loopPut, bind_run, get_run, hw]; rfl
    · unfold LbHolds setLb
      simp only [qStep, List.length_map] at hr
      split
      · rename_i hlt; rw [if_pos hlt] at hr; simpa using hr
      · rename_i hlt; rw [if_neg hlt] at hr; simpa using hr

theorem loopGet_spec {c : Cfg} {w : W} {q : List Msg} (h : LbHolds c w q) :
    ∃ cb, loopGet w = (q.head?, setLb w cb) ∧ LbHolds c (setLb w cb) q.tail := by
  obtain ⟨cb', hs, hr⟩ := cbStep_refines h [(default : Msg)] rfl .get trivial
  simp only [cbStep, Option.bind_eq_bind] at hs
  cases hw : cyclicBufferRead w.tp.lb [(default : Msg)] 1 with
  | none => rw [hw] at hs; simp at hs
  | some p =>
    obtain ⟨n, cb, mm⟩ := p
    rw [hw] at hs
    simp only [Option.bind_some, Option.some.injEq, Prod.mk.injEq] at hs
    obtain ⟨rfl, ho⟩ := hs
    refine ⟨cb, ?_, ?_⟩
    · cases q with
      | nil =>
        simp [qStep] at ho
        have hn : ¬ 0 < n := by
          intro hpos
          have hr0 := readLoop_spec 1 w.tp.lb [] [(default : Msg)] 0 0 (by simpa [LbHolds] using h) (by simp) (by simp; exact Nat.le_of_lt h.hr)
          obtain ⟨cb2, m2, hl, -⟩ := hr0
          have : cyclicBufferRead w.tp.lb [(default : Msg)] 1 = readLoop 1 w.tp.lb [default] (w.tp.lb.readIndex.toNat * 1) 0 0 := by
            rw [cyclicBufferRead, h.helem]; rfl
          rw [this, hl] at hw
          simp at hw
          obtain ⟨rfl, -⟩ := hw
          exact absurd hpos (by decide)
        simp only [loopGet, bind_run, get_run, hw, hn, if_false]; rfl
      | cons e q =>
        simp [qStep] at ho
        obtain ⟨rfl, rfl⟩ := ho
        simp only [loopGet, bind_run, get_run, hw]; rfl
    · cases q with
      | nil => simpa [qStep, LbHolds, setLb] using hr
      | cons e q => simpa [qStep, LbHolds, setLb] using hr

theorem init_spec {c : Ctx} (hc : LoopbackCfg c) (hl : c.loopback = true) (w : W) :
    ∃ cb, init c w = ((), setLb w cb) ∧ LbHolds c (setLb w cb) [] := by
  have h1 := hc.one
  have h2 := hc.pos
  have h3 := hc.fits
  have hmul : c.sizeofMsg ≤ c.loopbackNum * c.sizeofMsg := Nat.le_mul_of_pos_left _ h1
  have hs : (BitVec.ofNat 8 c.sizeofMsg).toNat = c.sizeofMsg := by simp; omega
  have ht : (BitVec.ofNat 8 (c.loopbackNum * c.sizeofMsg)).toNat = c.loopbackNum * c.sizeofMsg := by
    simp; omega
  have hmul2 : c.loopbackNum ≤ c.loopbackNum * c.sizeofMsg := Nat.le_mul_of_pos_right _ h2
  have hne : BitVec.ofNat 8 c.sizeofMsg ≠ 0 := by
    intro h; rw [h] at hs; simp at hs; omega
  refine ⟨⟨List.replicate c.loopbackNum default, 1, BitVec.ofNat 8 c.loopbackNum, 0, 0⟩, ?_, ?_⟩
  · simp only [init, hl, if_true, cyclicBufferInit, hne, if_false, hs, ht,
      Nat.mul_div_cancel _ h2, modify_run, setLb]
  · refine ⟨?_, rfl, h1, ?_, ?_, ?_, ?_, ?_⟩
    · simp [setLb]; omega
    · simp [setLb]
    · simp [setLb]; omega
    · simp; omega
    · simp [setLb]
    · intro i hi; simp at hi

/-- The queue after a read, and the result. -/
theorem readMessage_spec {c : Ctx} (hl : c.loopback = true) {w : W} {q : List Msg} (h : LbHolds c w q)
    (rx : Option Msg) :
    ∃ cb, readMessage c rx w = ((q.head?.orElse fun _ => rx), setLb w cb) ∧
      LbHolds c (setLb w cb) (if q = [] then [] else q.tail ++ rx.toList) := by
  obtain ⟨cb, hg, hh⟩ := loopGet_spec h
  have hq := h.hq
  cases q with
  | nil =>
    refine ⟨cb, ?_, by simpa using hh⟩
    simp [readMessage, hl, hg]
  | cons e q =>
    simp only [List.length_map, List.length_cons] at hq
    cases rx with
    | none =>
      refine ⟨cb, ?_, by simpa using hh⟩
      simp [readMessage, hl, hg, loopPutOpt]
    | some r =>
      obtain ⟨cb2, hp, hh2⟩ := loopPut_spec hh r
      refine ⟨cb2, ?_, ?_⟩
      · simp [readMessage, hl, hg, loopPutOpt, hp]
        simp [setLb]
      · rw [if_pos (by simp; omega)] at hh2
        simpa [setLb] using hh2

theorem adapterWrite_run (c : Ctx) (m : Msg) (w : W) :
    adapterWrite c m w = (c.txOk w.out.length, { w with out := w.out ++ [.tx m (c.txOk w.out.length)] }) := by
  simp [adapterWrite]

/-- The error counter after a transmission with result `ok`. -/
def countErr (ok : Bool) (w : W) : W :=
  if ok = false ∧ w.tp.txErr.toNat < 255 then { w with tp := { w.tp with txErr := w.tp.txErr + 1 } } else w

theorem countErr_eq (ok : Bool) (w : W) : countErr ok w =
    { w with tp := { w.tp with txErr :=
      if ok = false ∧ w.tp.txErr.toNat < 255 then w.tp.txErr + 1 else w.tp.txErr } } := by
  unfold countErr; split <;> rfl

/-- Only the loopback buffer (and the flag for undefined behaviour) is changed by a put. -/
theorem loopPut_frame (m : Msg) (w : W) :
    (loopPut m w).2 = { w with tp := { w.tp with lb := (loopPut m w).2.tp.lb }, ub := (loopPut m w).2.ub } := by
  cases hw : Util.cyclicBufferWrite w.tp.lb [m] 1 <;> simp only [loopPut, bind_run, get_run, hw] <;> rfl

theorem loopGet_frame (w : W) :
    (loopGet w).2 = { w with tp := { w.tp with lb := (loopGet w).2.tp.lb }, ub := (loopGet w).2.ub } := by
  cases hw : Util.cyclicBufferRead w.tp.lb [default] 1 <;> simp only [loopGet, bind_run, get_run, hw] <;> rfl

theorem readMessage_frame (c : Ctx) (rx : Option Msg) (w : W) :
    (readMessage c rx w).2 = { w with
      tp := { w.tp with lb := (readMessage c rx w).2.tp.lb }, ub := (readMessage c rx w).2.ub } := by
  unfold readMessage
  split
  · cases hg : (loopGet w).1 with
    | none => simpa only [bind_run, pure_run, hg] using loopGet_frame w
    | some g =>
      cases rx with
      | none => simpa only [bind_run, pure_run, hg, loopPutOpt] using loopGet_frame w
      | some r =>
        simp only [bind_run, hg, pure_run, loopPutOpt]
        rw [loopPut_frame, loopGet_frame]
  · rfl

/-- The state in which the adapter is called. -/
def beforeTx (c : Ctx) (m : Msg) (w : W) : W :=
  if c.loopback = true ∧ m.cls ≠ CLASS_PROTOCOL ∧ m.cls ≠ CLASS_LOG then (loopPut m w).2 else w

theorem beforeTx_frame (c : Ctx) (m : Msg) (w : W) : beforeTx c m w =
    { w with tp := { w.tp with lb := (beforeTx c m w).tp.lb }, ub := (beforeTx c m w).ub } := by
  unfold beforeTx
  split
  · exact loopPut_frame m w
  · rfl

theorem writeMessage_run (c : Ctx) (m : Msg) (w : W) : writeMessage c m w =
    if c.loopback = true ∧ ¬ m.size.toNat ≤ 8 then (false, countErr false w)
    else (c.txOk w.out.length, countErr (c.txOk w.out.length)
      { beforeTx c m w with out := w.out ++ [.tx m (c.txOk w.out.length)] }) := by
  have hcount : ∀ (b : Bool) (w0 : W), (whenM (b = false) (modify fun w => if w.tp.txErr.toNat < 255 then
        { w with tp := { w.tp with txErr := w.tp.txErr + 1 } } else w) w0) = ((), countErr b w0) := by
    intro b w0
    rw [whenM_run]
    cases b
    · simp [countErr]
    · simp [countErr]
  have hout : (loopPut m w).2.out = w.out := by rw [loopPut_frame]
  by_cases hl : c.loopback = true
  · by_cases hs : m.size.toNat ≤ 8
    · rw [if_neg (by simp [hs])]
      by_cases hc : m.cls ≠ CLASS_PROTOCOL ∧ m.cls ≠ CLASS_LOG
      · rw [beforeTx, if_pos ⟨hl, hc⟩]
        unfold writeMessage
        rw [bind_run, if_pos hl, if_pos (show _ ≤ L1_DATA_SIZE from hs), bind_run, bind_run, pure_run, hcount, whenM_run, if_pos hc,
          adapterWrite_run, hout]
      · rw [beforeTx, if_neg (fun h => hc h.2)]
        unfold writeMessage
        rw [bind_run, if_pos hl, if_pos (show _ ≤ L1_DATA_SIZE from hs), bind_run, bind_run, pure_run, hcount, whenM_run, if_neg hc,
          adapterWrite_run]
    · rw [if_pos ⟨hl, hs⟩]
      unfold writeMessage
      rw [bind_run, if_pos hl, if_neg (show ¬ _ ≤ L1_DATA_SIZE from hs), bind_run, pure_run, hcount]
      rfl
  · rw [if_neg (fun h => hl h.1), beforeTx, if_neg (fun h => hl h.1)]
    unfold writeMessage
    rw [bind_run, if_neg hl, bind_run, pure_run, hcount, adapterWrite_run]

end Vscp.Transport
