/-
Properties C09 - C11: transport layer.
-/
import Verif.Lemmas.Transport
import Verif.Example.Ctx

namespace Vscp.Transport
open Vscp.Spec Vscp.Util M

/-- One call of the transport interface. -/
def tStep (c : Ctx) : TOp → M TOut
  | .read rx => TOut.got <$> readMessage c rx
  | .write m => TOut.sent <$> writeMessage c m
  | .getErrors => TOut.errors <$> getTransmitErrors

/-- A history of calls: the outputs and the world afterwards. -/
def tRun (c : Ctx) : List TOp → W → List TOut × W
  | [], w => ([], w)
  | op :: ops, w =>
    let r := tStep c op w
    let rs := tRun c ops r.2
    (r.1 :: rs.1, rs.2)

/-- What `n` reads deliver while the adapter has nothing. -/
def drain (c : Ctx) : Nat → W → List Msg
  | 0, _ => []
  | n + 1, w =>
    let r := readMessage c none w
    r.1.toList ++ drain c n r.2

/-! ### Helpers -/

theorem LbHolds_congr {c : Cfg} {w w' : W} {q : List Msg} (h : LbHolds c w q) (he : w'.tp.lb = w.tp.lb) :
    LbHolds c w' q := by unfold LbHolds at *; rw [he]; exact h

/-- The queue after a write. -/
theorem writeMessage_queue {c : Ctx} (hl : c.loopback = true) {w : W} {q : List Msg} (h : LbHolds c w q)
    (m : Msg) :
    LbHolds c (writeMessage c m w).2
      (if LoopbackCandidate m ∧ q.length < c.loopbackNum - 1 then q ++ [m] else q) ∧
    (writeMessage c m w).2.ub = w.ub := by
  obtain ⟨cb, hp, hh⟩ := loopPut_spec h m
  have hcls : LoopbackCandidate m ↔ m.size.toNat ≤ 8 ∧ m.cls ≠ CLASS_PROTOCOL ∧ m.cls ≠ CLASS_LOG := Iff.rfl
  rw [writeMessage_run]
  by_cases hs : m.size.toNat ≤ 8
  · rw [if_neg (by simp [hs]), countErr_eq]
    by_cases hc : m.cls ≠ CLASS_PROTOCOL ∧ m.cls ≠ CLASS_LOG
    · have hcand : LoopbackCandidate m := hcls.mpr ⟨hs, hc⟩
      rw [beforeTx, if_pos ⟨hl, hc⟩, hp]
      simp only [hcand, true_and]
      exact ⟨LbHolds_congr hh rfl, rfl⟩
    · have hcand : ¬ LoopbackCandidate m := fun hh => hc (hcls.mp hh).2
      rw [beforeTx, if_neg (fun h => hc h.2)]
      simp only [hcand, false_and, if_false]
      exact ⟨LbHolds_congr h rfl, trivial⟩
  · have hcand : ¬ LoopbackCandidate m := fun hh => hs (hcls.mp hh).1
    rw [if_pos ⟨hl, hs⟩, countErr_eq]
    simp only [hcand, false_and, if_false]
    exact ⟨LbHolds_congr h rfl, trivial⟩

theorem tRun_fifo {c : Ctx} (hl : c.loopback = true) (ops : List TOp) : ∀ (w : W) (q : List Msg),
    LbHolds c w q →
    ∃ rest, LbHolds c (tRun c ops w).2 rest ∧ (tRun c ops w).2.ub = w.ub ∧
      returned (tRun c ops w).1 ++ rest = q ++ (entering (c.loopbackNum - 1) q.length ops).map (·.2) := by
  induction ops with
  | nil => intro w q h; exact ⟨q, h, rfl, by simp [tRun, returned, entering]⟩
  | cons op ops ih =>
    intro w q h
    cases op with
    | read rx =>
      obtain ⟨cb, hr, hh⟩ := readMessage_spec hl h rx
      obtain ⟨rest, h1, hub, h2⟩ := ih _ _ hh
      refine ⟨rest, ?_, ?_, ?_⟩
      · simpa [tRun, tStep, hr] using h1
      · simpa [tRun, tStep, hr, setLb] using hub
      · simp only [tRun, tStep, map_run, hr]
        cases q with
        | nil =>
          simp only [if_true, List.length_nil, List.nil_append] at h2
          cases rx with
          | none => simpa [returned, entering] using h2
          | some r => simpa [returned, entering] using h2
        | cons e q =>
          cases rx with
          | none => simpa [returned, entering] using h2
          | some r => simpa [returned, entering] using h2
    | write m =>
      obtain ⟨hw, hub1⟩ := writeMessage_queue hl h m
      obtain ⟨rest, h1, hub, h2⟩ := ih _ _ hw
      refine ⟨rest, ?_, ?_, ?_⟩
      · simpa [tRun, tStep] using h1
      · simpa [tRun, tStep, hub1] using hub
      · simp only [tRun, tStep, map_run, returned, entering]
        rw [h2]
        split <;> simp
    | getErrors =>
      obtain ⟨rest, h1, hub, h2⟩ := ih { w with tp := { w.tp with txErr := 0 } } q (LbHolds_congr h rfl)
      refine ⟨rest, ?_, ?_, ?_⟩
      · simpa [tRun, tStep, getTransmitErrors] using h1
      · simpa [tRun, tStep, getTransmitErrors] using hub
      · simpa [tRun, tStep, getTransmitErrors, returned, entering] using h2

theorem drain_spec {c : Ctx} (hl : c.loopback = true) (n : Nat) : ∀ (w : W) (q : List Msg),
    LbHolds c w q → q.length ≤ n → drain c n w = q := by
  induction n with
  | zero => intro w q _ hn; simp at hn; simp [drain, hn]
  | succ n ih =>
    intro w q h hn
    obtain ⟨cb, hr, hh⟩ := readMessage_spec hl h none
    simp only [drain, hr]
    cases q with
    | nil => simp only [if_true] at hh; simpa using ih _ _ hh (by simp)
    | cons e q =>
      simp only [reduceCtorEq, if_false, List.tail_cons, Option.toList_none, List.append_nil] at hh
      simp at hn
      simpa using ih _ _ hh hn

/-! ### C09 -/

/-- The received events among the entering ones are all received events. -/
theorem entering_received (cap : Nat) (ops : List TOp) : ∀ k,
    ((entering cap k ops).filter (·.1)).map (·.2) = received ops := by
  induction ops with
  | nil => intro k; simp [entering, received]
  | cons op ops ih =>
    intro k
    cases op with
    | read rx => cases rx <;> simp [entering, received, ih]
    | write m => simp only [entering, received]; split <;> simp [ih]
    | getErrors => simp [entering, received, ih]

/-- C09: with loopback enabled, for every history of reads, writes and error count queries and every behaviour of the
adapter: the events returned by the reads, followed by those still waiting (`rest`), are exactly the
events which entered the queue, in the order in which they entered.  All received events are among them, in the order
of their arrival, and a read comes back empty only if nothing waits and the adapter has nothing.  Nothing of
this leaves defined behaviour. -/
theorem C09_loopback_fifo (c : Ctx) (hl : c.loopback = true) (hc : LoopbackCfg c) (w : W) (ops : List TOp) :
    let r := tRun c ops (init c w).2
    let entered := entering (c.loopbackNum - 1) 0 ops
    ∃ rest, returned r.1 ++ rest = entered.map (·.2) ∧
      (entered.filter (·.1)).map (·.2) = received ops ∧
      (∀ rx, (readMessage c rx r.2).1 = none → rest = [] ∧ rx = none) ∧
      r.2.ub = w.ub := by
  intro r entered
  obtain ⟨cb, hi, hh⟩ := init_spec hc hl w
  have hi2 : (init c w).2 = setLb w cb := by rw [hi]
  obtain ⟨rest, h1, hub, h2⟩ := tRun_fifo hl ops (init c w).2 [] (by rw [hi2]; exact hh)
  refine ⟨rest, by simpa using h2, entering_received _ _ _, ?_, ?_⟩
  · intro rx hrx
    obtain ⟨cb, hr, -⟩ := readMessage_spec hl h1 rx
    rw [show (tRun c ops (init c w).2).2 = r.2 from rfl] at hr
    rw [hr] at hrx
    cases rest with
    | nil => exact ⟨rfl, by simpa using hrx⟩
    | cons e rest => simp at hrx
  · rw [show r.2.ub = (init c w).2.ub from hub, hi2]; rfl

/-- The hypotheses hold in a configuration with four elements; a history in which two own events and one received
event compete. -/
example : LoopbackCfg Ex.ctx ∧ Ex.ctx.loopback = true ∧
    (entering 3 0 [.write (Ex.msg 10 6 1 [1]), .read (some (Ex.msg 20 3 2 [])), .write (Ex.msg 0 6 1 [1]), .read none]).map
      (fun x => (x.1, x.2.cls)) = [(false, 10), (true, 20)] :=
  ⟨⟨by decide, by decide, by decide⟩, rfl, by decide⟩

/-- C09 without loopback: every read returns what the adapter delivers. -/
theorem C09_without_loopback (c : Ctx) (hl : c.loopback = false) (w : W) (ops : List TOp) :
    returned (tRun c ops w).1 = received ops := by
  induction ops generalizing w with
  | nil => rfl
  | cons op ops ih =>
    cases op with
    | read rx => cases rx <;> simp [tRun, tStep, readMessage, hl, returned, received, ih]
    | write m => simp [tRun, tStep, returned, received, ih]
    | getErrors => simp [tRun, tStep, returned, received, ih]

/-! ### C10 -/

theorem writeMessage_err (c : Ctx) (m : Msg) (w : W) :
    (writeMessage c m w).2.tp.txErr.toNat =
      if (writeMessage c m w).1 then w.tp.txErr.toNat else min (w.tp.txErr.toNat + 1) 255 := by
  have key : ∀ (b : Bool) (w0 : W), w0.tp.txErr = w.tp.txErr →
      (countErr b w0).tp.txErr.toNat = if b then w.tp.txErr.toNat else min (w.tp.txErr.toNat + 1) 255 := by
    intro b w0 h0
    have hlt := w.tp.txErr.isLt
    rw [countErr_eq]
    cases b
    · simp only [h0, true_and, Bool.false_eq_true, if_false]
      split
      · simp only [BitVec.toNat_add]; simp; omega
      · omega
    · simp [h0]
  rw [writeMessage_run]
  split
  · exact key _ _ rfl
  · exact key _ _ (by rw [beforeTx_frame])

theorem readMessage_err (c : Ctx) (rx : Option Msg) (w : W) :
    (readMessage c rx w).2.tp.txErr = w.tp.txErr := by
  rw [readMessage_frame]

/-- C10: in every history of writes, reads and error count queries, with every behaviour of the adapter, starting with
a node whose counter stands at `min n 255`, every reported count is the number of failed transmissions since
the previous report, saturating at 255. -/
theorem C10_transmit_errors (c : Ctx) (n : Nat) (w : W) (hw : w.tp.txErr.toNat = min n 255)
    (ops : List TOp) : ErrorsExact n (tRun c ops w).1 := by
  induction ops generalizing w n with
  | nil => trivial
  | cons op ops ih =>
    cases op with
    | read rx =>
      exact ih n _ (by simp only [tStep, map_run, readMessage_err]; exact hw)
    | write m =>
      simp only [tRun, tStep, map_run, ErrorsExact]
      apply ih
      rw [writeMessage_err, hw]
      split <;> omega
    | getErrors =>
      simp only [tRun, tStep, map_run, getTransmitErrors, bind_run, get_run, modify_run, pure_run, ErrorsExact]
      exact ⟨hw, ih 0 _ (by simp)⟩

/-- Two failures, a report, one success, one failure, a report. -/
example : ErrorsExact 0 [.sent false, .sent false, .errors 2, .sent true, .sent false, .errors 1] := by
  simp [ErrorsExact]

example : (powerUp fun _ => 0xFF).tp.txErr.toNat = min 0 255 := rfl

/-! ### C11 -/

/-- C11: an own event with at most 8 data bytes, or any event without loopback, is handed to the adapter exactly once,
unchanged, and the adapter's result is returned. -/
theorem C11_sent_to_adapter (c : Ctx) (m : Msg) (w : W) (h : c.loopback = false ∨ m.size.toNat ≤ 8) :
    (writeMessage c m w).1 = c.txOk w.out.length ∧
    (writeMessage c m w).2.out = w.out ++ [.tx m (c.txOk w.out.length)] := by
  rw [writeMessage_run, if_neg (by rcases h with h | h <;> simp [h]), countErr_eq]
  exact ⟨rfl, rfl⟩

/-- C11: with loopback enabled, an event with more than 8 data bytes is not handed to the adapter: nothing happens
except that the transmission fails and is counted. -/
theorem C11_oversized_refused (c : Ctx) (hl : c.loopback = true) (m : Msg) (w : W) (hs : 8 < m.size.toNat) :
    (writeMessage c m w).1 = false ∧ (writeMessage c m w).2.out = w.out ∧
    (writeMessage c m w).2.tp.lb = w.tp.lb ∧
    (writeMessage c m w).2.tp.txErr.toNat = min (w.tp.txErr.toNat + 1) 255 := by
  have herr := writeMessage_err c m w
  rw [writeMessage_run, if_pos ⟨hl, by omega⟩] at herr ⊢
  refine ⟨rfl, ?_, ?_, herr⟩
  · rw [countErr_eq]
  · rw [countErr_eq]

/-- C11: after any history, an own event is looped back (is delivered by the next reads, behind the events
which already wait) iff it is a loopback candidate and less than (elements - 1) events wait; otherwise the waiting events
stay as they are. -/
theorem C11_looped_back_iff (c : Ctx) (hl : c.loopback = true) (hc : LoopbackCfg c) (w0 : W) (ops : List TOp)
    (m : Msg) :
    let w := (tRun c ops (init c w0).2).2
    let waiting := drain c c.loopbackNum w
    drain c c.loopbackNum (writeMessage c m w).2 =
      if LoopbackCandidate m ∧ waiting.length < c.loopbackNum - 1 then waiting ++ [m] else waiting := by
  intro w waiting
  obtain ⟨cb, hi, hh⟩ := init_spec hc hl w0
  have hi2 : (init c w0).2 = setLb w0 cb := by rw [hi]
  obtain ⟨rest, h1, -, -⟩ := tRun_fifo hl ops (init c w0).2 [] (by rw [hi2]; exact hh)
  have hq := h1.hq
  simp only [List.length_map] at hq
  have hw : waiting = rest := drain_spec hl _ _ _ h1 (by omega)
  obtain ⟨h2, -⟩ := writeMessage_queue hl h1 m
  rw [hw]
  refine drain_spec hl _ _ _ h2 ?_
  split
  · simp; omega
  · omega

/-- C11: without loopback nothing is looped back. -/
theorem C11_no_loopback (c : Ctx) (hl : c.loopback = false) (m : Msg) (w : W) (n : Nat) :
    drain c n (writeMessage c m w).2 = [] := by
  generalize (writeMessage c m w).2 = w
  induction n generalizing w with
  | zero => rfl
  | succ n ih => simp [drain, readMessage, hl, ih]

example : LoopbackCandidate (Ex.msg 10 6 1 [1]) ∧ ¬ LoopbackCandidate (Ex.msg 0 6 1 [1]) ∧
    ¬ LoopbackCandidate (Ex.msg 509 1 1 [1]) := by decide

/-! ### C65 -/

/-- C65 is violated: the size of the loopback storage is passed as an 8 bit number.  With 16 elements of 16 bytes
it becomes 0, and the first read divides by zero. -/
theorem C65_loopback_size_violated : ∃ c : Ctx, c.loopback = true ∧ 2 ≤ c.loopbackNum ∧ 1 ≤ c.sizeofMsg ∧
    c.sizeofMsg ≤ 255 ∧
    ∀ w : W, w.ub = false → (init c w).2.ub = false ∧ (writeMessage c (Ex.msg 10 6 1 []) (init c w).2).2.ub = true := by
  refine ⟨{ Ex.ctx with loopbackNum := 16, sizeofMsg := 16 }, rfl, by decide, by decide, by decide, ?_⟩
  intro w hw
  refine ⟨hw, ?_⟩
  rw [writeMessage_run, if_neg (by decide), countErr_eq]
  rw [beforeTx, if_pos (by decide)]
  rfl

/-- C65 is violated silently, too: with 17 elements of 16 bytes just one slot is left, and an own event is never looped back
although 16 should have a place. -/
theorem C65_loopback_lost_violated : ∃ c : Ctx, c.loopback = true ∧ 2 ≤ c.loopbackNum ∧ 1 ≤ c.sizeofMsg ∧
    c.sizeofMsg ≤ 255 ∧
    ∀ w : W, LoopbackCandidate (Ex.msg 10 6 1 []) ∧
      (readMessage c none (writeMessage c (Ex.msg 10 6 1 []) (init c w).2).2).1 = none := by
  refine ⟨{ Ex.ctx with loopbackNum := 17, sizeofMsg := 16 }, rfl, by decide, by decide, by decide, ?_⟩
  intro w
  refine ⟨by decide, ?_⟩
  generalize hc : ({ Ex.ctx with loopbackNum := 17, sizeofMsg := 16 } : Ctx) = c
  have hl : c.loopback = true := by rw [← hc]; rfl
  let cb : CyclicBuffer Msg := ⟨List.replicate 17 default, 1, 1, 0, 0⟩
  have hi : (init c w).2 = setLb w cb := by rw [← hc]; rfl
  have hp : (loopPut (Ex.msg 10 6 1 []) (setLb w cb)).2 = setLb w cb := by
    have : cyclicBufferWrite cb [Ex.msg 10 6 1 []] 1 = some (0, cb) := by
      simp [cyclicBufferWrite, nextIndex, cb, writeLoop]
    simp only [loopPut, bind_run, get_run, show (setLb w cb).tp.lb = cb from rfl, this]
    rfl
  have hg : ∀ w' : W, w'.tp.lb = cb → (loopGet w').1 = none := by
    intro w' h'
    have : cyclicBufferRead cb [(default : Msg)] 1 = some (0, cb, [default]) := by
      simp [cyclicBufferRead, cb, readLoop]
    simp only [loopGet, bind_run, get_run, h', this]
    rfl
  have hb : (writeMessage c (Ex.msg 10 6 1 []) (init c w).2).2.tp.lb = cb := by
    rw [writeMessage_run, if_neg (fun h => absurd h.2 (by decide)), countErr_eq, beforeTx, if_pos ⟨hl, by decide⟩, hi, hp]
    rfl
  simp only [readMessage, hl, if_true, bind_run, hg _ hb, pure_run]

/-- C65, what holds: with at least two elements and at most 255 bytes of storage, an own event is looped back
by a node which has nothing else to deliver.  Missing: storage sizes above 255 bytes. -/
theorem C65_loopback_size_partial (c : Ctx) (hl : c.loopback = true) (hc : LoopbackCfg c) (h2 : 2 ≤ c.loopbackNum)
    (w : W) (m : Msg) (hm : LoopbackCandidate m) :
    (readMessage c none (writeMessage c m (init c w).2).2).1 = some m := by
  obtain ⟨cb, hi, hh⟩ := init_spec hc hl w
  have hi2 : (init c w).2 = setLb w cb := by rw [hi]
  rw [hi2]
  have h1 := (writeMessage_queue hl hh m).1
  rw [if_pos ⟨hm, by simp; omega⟩] at h1
  obtain ⟨cb2, hr, -⟩ := readMessage_spec hl h1 none
  rw [hr]; rfl

end Vscp.Transport
