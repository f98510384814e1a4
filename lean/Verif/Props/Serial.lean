/-
The serial driver of the AVR example under every interleaving with its interrupts: C72, C73, C74, C75.
-/
import Verif.Lemmas.Serial

namespace Vscp.SerialProps
open Vscp.Driver.Serial Vscp.Spec.Serial

/-! ### C72: reception -/

section Rx
open Rx

/-- The application inside of a function. -/
def PcOk (r : Ring) (q : List U8) : Rx.Pc → Prop
  | .index => q ≠ []
  | .get nx => q ≠ [] ∧ nx = next r.size r.read
  | .move nx b => nx = next r.size r.read ∧ ∃ q', q = b :: q'
  | .drop x => x = r.read
  | _ => True

/-- The receiver holds the bytes `q`. -/
structure Holds (n : U8) (s : Rx.State) (q : List U8) : Prop where
  ok : s.ring.Ok
  size : s.ring.size = n
  content : s.ring.content = q
  pc : PcOk s.ring q s.pc

theorem holds_start {storage : List U8} {n : U8} (h2 : 2 ≤ n.toNat) (hl : storage.length = n.toNat) : Holds n (start storage n) [] :=
  ⟨.init h2 hl, rfl, Ring.content_init, trivial⟩

theorem holds_move {n : U8} {s : Rx.State} {q : List U8} (h : Holds n s q) (mv : Rx.Move) :
    ∃ s' e q', Rx.move s mv = some (s', e) ∧ Holds n s' q' ∧ ∀ t, Fifo (n.toNat - 1) q' t → Fifo (n.toNat - 1) q (e ++ t) := by
  obtain ⟨ok, hn, hc, hp⟩ := h
  obtain ⟨r, f, pc⟩ := s
  dsimp only at ok hn hc hp
  cases mv with
  | call c =>
    refine ⟨_, [], q, rfl, ?_, fun t h => h⟩
    split
    · exact ⟨ok, hn, hc, by cases c <;> trivial⟩
    · exact ⟨ok, hn, hc, hp⟩
  | isr b =>
    rcases Ring.put_spec ok b with ⟨r', h1, h2, h3, h4, h5, h6⟩ | ⟨h1, h2⟩
    · refine ⟨⟨r', f, pc⟩, [.received b true], q ++ [b], by simp only [Rx.move, Rx.isr, h1, if_true], ⟨h2, h3.trans hn, by rw [h6, hc], ?_⟩, fun t h => ?_⟩
      · cases pc <;> simp only [PcOk, h3, h4] at hp ⊢
        · simp
        · exact ⟨by simp, hp.2⟩
        · obtain ⟨h, q', e⟩ := hp
          exact ⟨h, q' ++ [b], by rw [e]; rfl⟩
        · exact hp
      · exact ⟨by rw [← hc, ← hn]; exact h5, h⟩
    · refine ⟨⟨r, true, pc⟩, [.received b false], q, by simp only [Rx.move, Rx.isr, h1, Bool.false_eq_true, if_false], ⟨ok, hn, hc, hp⟩, fun t h => ?_⟩
      exact ⟨by rw [← hc, ← hn]; exact h2, h⟩
  | step =>
    cases pc with
    | idle => exact ⟨_, _, q, rfl, ⟨ok, hn, hc, trivial⟩, fun t h => h⟩
    | check =>
      by_cases he : r.read = r.write
      · refine ⟨⟨r, f, .idle⟩, [.nothing], q, by simp only [Rx.move, Rx.step, he, ne_eq, not_true_eq_false, if_false], ⟨ok, hn, hc, trivial⟩, fun t h => ?_⟩
        exact ⟨by rw [← hc]; exact (Ring.content_nil ok).2 he, h⟩
      · refine ⟨⟨r, f, .index⟩, [], q, by simp only [Rx.move, Rx.step, he, ne_eq, not_false_eq_true, if_true], ⟨ok, hn, hc, ?_⟩, fun t h => h⟩
        show q ≠ []
        rw [← hc]; exact fun h => he ((Ring.content_nil ok).1 h)
    | index => exact ⟨_, _, q, rfl, ⟨ok, hn, hc, hp, rfl⟩, fun t h => h⟩
    | get nx =>
      have hne : r.read ≠ r.write := fun e => hp.1 (by rw [← hc]; exact (Ring.content_nil ok).2 e)
      obtain ⟨b, h1, h2⟩ := Ring.content_cons ok hne
      refine ⟨⟨r, f, .move nx b⟩, [], q, by simp only [Rx.move, Rx.step, h1], ⟨ok, hn, hc, hp.2, _, hc.symm.trans h2⟩, fun t h => h⟩
    | move nx b =>
      obtain ⟨h1, q', h2⟩ := hp
      have hne : r.read ≠ r.write := fun e => by
        have := (Ring.content_nil ok).2 e
        rw [hc, h2] at this; cases this
      obtain ⟨b', h3, h4⟩ := Ring.content_cons ok hne
      rw [show r.content = q from hc, h2] at h4
      injection h4 with h5 h6
      refine ⟨_, _, q', rfl, ⟨⟨ok.two, ok.len, by rw [h1]; exact next_lt ok.rd, ok.wr⟩, hn, by rw [h6, h1], trivial⟩, fun t h => ⟨q', h2, h⟩⟩
    | load => exact ⟨_, _, q, rfl, ⟨ok, hn, hc, rfl⟩, fun t h => h⟩
    | drop x =>
      have hx : x = r.read := hp
      have ok' : Ring.Ok { r with write := x } := ⟨ok.two, ok.len, ok.rd, by rw [hx]; exact ok.rd⟩
      exact ⟨⟨{ r with write := x }, f, .idle⟩, [.cleared], [], rfl, ⟨ok', hn, (Ring.content_nil ok').2 hx.symm, trivial⟩, fun t h => h⟩
    | flag => exact ⟨_, _, q, rfl, ⟨ok, hn, hc, trivial⟩, fun t h => h⟩
    | unflag x => exact ⟨_, _, q, rfl, ⟨ok, hn, hc, trivial⟩, fun t h => h⟩

theorem holds_run {n : U8} : ∀ (l : List Rx.Move) {s : Rx.State} {q : List U8}, Holds n s q →
    ∃ s' t q', Rx.run l s = some (s', t) ∧ Holds n s' q' ∧ Fifo (n.toNat - 1) q t
  | [], s, q, h => ⟨s, [], q, rfl, h, trivial⟩
  | mv :: l, s, q, h => by
    obtain ⟨s1, e, q1, h1, h2, h3⟩ := holds_move h mv
    obtain ⟨s2, t, q2, h4, h5, h6⟩ := holds_run l h2
    exact ⟨s2, e ++ t, q2, by simp only [Rx.run, h1, h4], h5, h3 t h6⟩

/-- C72: with a storage of `n` bytes, under every history of calls and received bytes, where a byte may be received between any two accesses of the application to the shared variables, the receiver
behaves like a queue for `n - 1` bytes whose operations are not interrupted; no access is outside of the storage. -/
theorem C72_fifo (storage : List U8) (n : U8) (h2 : 2 ≤ n.toNat) (hl : storage.length = n.toNat) (l : List Rx.Move) :
    ∃ s t, Rx.run l (Rx.start storage n) = some (s, t) ∧ Fifo (n.toNat - 1) [] t := by
  obtain ⟨s, t, _, h, _, h'⟩ := holds_run l (holds_start h2 hl)
  exact ⟨s, t, h, h'⟩

theorem fifo_order {cap : Nat} : ∀ (t : List Rx.Ev) {q : List U8}, Fifo cap q t → q.length ≤ cap → Rx.Ev.cleared ∉ t →
    ∃ rest, q ++ stored t = got t ++ rest ∧ rest.length ≤ cap
  | [], q, _, hq, _ => ⟨q, by simp [stored, got], hq⟩
  | e :: t, q, h, hq, hn => by
    have hn' : Rx.Ev.cleared ∉ t := fun h => hn (List.mem_cons_of_mem _ h)
    cases e with
    | received b ok =>
      cases ok with
      | true =>
        obtain ⟨h1, h2⟩ := h
        obtain ⟨rest, h3, h4⟩ := fifo_order t h2 (by simp; omega) hn'
        exact ⟨rest, by simpa [stored, got] using h3, h4⟩
      | false =>
        obtain ⟨rest, h3, h4⟩ := fifo_order t h.2 hq hn'
        exact ⟨rest, by simpa [stored, got] using h3, h4⟩
    | got b =>
      obtain ⟨q', rfl, h2⟩ := h
      obtain ⟨rest, h3, h4⟩ := fifo_order t h2 (by simp at hq; omega) hn'
      exact ⟨rest, by simpa [stored, got] using h3, h4⟩
    | nothing =>
      obtain ⟨rest, h3, h4⟩ := fifo_order t h.2 hq hn'
      exact ⟨rest, by simpa [stored, got] using h3, h4⟩
    | cleared => exact absurd (List.mem_cons_self ..) hn
    | overflow f =>
      obtain ⟨rest, h3, h4⟩ := fifo_order t h hq hn'
      exact ⟨rest, by simpa [stored, got] using h3, h4⟩

/-- C72: as long as the buffer is not cleared, the bytes read are the stored ones, in the order of their reception, without gap and repetition; at most
`n - 1` of them are still to be read. -/
theorem C72_order (storage : List U8) (n : U8) (h2 : 2 ≤ n.toNat) (hl : storage.length = n.toNat) (l : List Rx.Move) (hc : Rx.Move.call .clear ∉ l) :
    ∃ s t rest, Rx.run l (Rx.start storage n) = some (s, t) ∧ stored t = got t ++ rest ∧ rest.length ≤ n.toNat - 1 := by
  obtain ⟨s, t, h, h'⟩ := C72_fifo storage n h2 hl l
  have : ∀ (l : List Rx.Move) (s : Rx.State) s' t, Rx.Move.call .clear ∉ l → (∀ x, s.pc ≠ .drop x) → s.pc ≠ .load → Rx.run l s = some (s', t) → Rx.Ev.cleared ∉ t := by
    intro l
    induction l with
    | nil => intro s s' t _ _ _ h; simp only [Rx.run, Option.some.injEq, Prod.mk.injEq] at h; simp [← h.2]
    | cons mv l ih =>
      intro s s' t hc hd hl h
      have hc1 : mv ≠ .call .clear := fun e => hc (e ▸ List.mem_cons_self ..)
      have hc2 : Rx.Move.call .clear ∉ l := fun h => hc (List.mem_cons_of_mem _ h)
      simp only [Rx.run] at h
      cases h1 : Rx.move s mv with
      | none => simp [h1] at h
      | some p =>
        obtain ⟨s1, e⟩ := p
        simp only [h1] at h
        cases h2 : Rx.run l s1 with
        | none => simp [h2] at h
        | some p =>
          obtain ⟨s2, t2⟩ := p
          simp only [h2, Option.some.injEq, Prod.mk.injEq] at h
          have key : Rx.Ev.cleared ∉ e ∧ (∀ x, s1.pc ≠ .drop x) ∧ s1.pc ≠ .load := by
            obtain ⟨r, f, pc⟩ := s
            cases mv with
            | call c =>
              simp only [Rx.move, Option.some.injEq, Prod.mk.injEq] at h1
              rw [← h1.1, ← h1.2]
              split
              · cases c <;> simp [Rx.enter] at hc1 ⊢
              · exact ⟨by simp, hd, hl⟩
            | step =>
              cases pc <;> simp only [Rx.move, Rx.step] at h1 <;> (try split at h1) <;>
                simp only [Option.some.injEq, Prod.mk.injEq, reduceCtorEq] at h1 <;> obtain ⟨rfl, rfl⟩ := h1 <;> simp_all
            | isr b =>
              simp only [Rx.move, Rx.isr] at h1
              split at h1
              · cases h1
              · simp only [Option.some.injEq, Prod.mk.injEq] at h1
                rw [← h1.1, ← h1.2]
                exact ⟨by simp, hd, hl⟩
          rw [← h.2]
          simp only [List.mem_append, not_or]
          exact ⟨key.1, ih s1 s2 t2 hc2 key.2.1 key.2.2 h2⟩
  obtain ⟨rest, h3, h4⟩ := fifo_order t h' (by simp) (this l _ _ _ hc (by simp [Rx.start]) (by simp [Rx.start]) h)
  exact ⟨s, t, rest, h, by simpa using h3, h4⟩

/-- A byte is received while another one is being read; the storage wraps around. -/
example : Rx.run [.isr 1, .call .read, .step, .isr 2, .step, .step, .isr 3, .step, .isr 4, .call .read, .step, .step, .step, .step] (Rx.start [0, 0, 0] 3) =
    some (⟨⟨[1, 2, 4], 3, 2, 0⟩, true, .idle⟩, [.received 1 true, .received 2 true, .received 3 false, .got 1, .received 4 true, .got 2]) := by decide

/-! ### C73: overflow of the receiver -/

theorem rx_cons {mv : Rx.Move} {l : List Rx.Move} {s s' : Rx.State} {t : List Rx.Ev} (h : Rx.run (mv :: l) s = some (s', t)) :
    ∃ s1 e t1, Rx.move s mv = some (s1, e) ∧ Rx.run l s1 = some (s', t1) ∧ t = e ++ t1 := by
  simp only [Rx.run] at h
  cases h1 : Rx.move s mv with
  | none => simp [h1] at h
  | some p =>
    obtain ⟨s1, e⟩ := p
    simp only [h1] at h
    cases h2 : Rx.run l s1 with
    | none => simp [h2] at h
    | some p =>
      obtain ⟨s2, t1⟩ := p
      simp only [h2, Option.some.injEq, Prod.mk.injEq] at h
      exact ⟨s1, e, t1, rfl, by rw [h2, h.1], h.2.symm⟩

/-- No byte is received between the two accesses of a query of the overflow flag. -/
def Undisturbed : List Rx.Move → Rx.State → Prop
  | [], _ => True
  | mv :: l, s => (∀ b, mv = .isr b → ∀ f, s.pc ≠ .unflag f) ∧ ∀ s1 e, Rx.move s mv = some (s1, e) → Undisturbed l s1

/-- C73 (part): if no byte is received between the two accesses of a query to the flag, each query tells whether a byte got lost since the last one. -/
theorem C73_reports_partial (storage : List U8) (n : U8) (l : List Rx.Move) (s : Rx.State) (t : List Rx.Ev)
    (h : Rx.run l (Rx.start storage n) = some (s, t)) (hu : Undisturbed l (Rx.start storage n)) : Reports false t := by
  have : ∀ (l : List Rx.Move) (s s' : Rx.State) (t : List Rx.Ev), (∀ f, s.pc = .unflag f → f = s.overflow) → Rx.run l s = some (s', t) →
      Undisturbed l s → Reports s.overflow t := by
    intro l
    induction l with
    | nil => intro s s' t _ h _; simp only [Rx.run, Option.some.injEq, Prod.mk.injEq] at h; rw [← h.2]; trivial
    | cons mv l ih =>
      intro s s' t hp h hu
      obtain ⟨s1, e, t1, h1, h2, rfl⟩ := rx_cons h
      have ih := fun hq => ih s1 s' t1 hq h2 (hu.2 s1 e h1)
      have hu := hu.1
      obtain ⟨r, f, pc⟩ := s
      cases mv with
      | call c =>
        simp only [Rx.move, Option.some.injEq, Prod.mk.injEq] at h1
        obtain ⟨rfl, rfl⟩ := h1
        split at ih
        · exact ih (fun f h => by cases c <;> simp [Rx.enter] at h)
        · exact ih hp
      | step =>
        cases pc <;> simp only [Rx.move, Rx.step] at h1 <;> (try split at h1) <;>
          simp only [Option.some.injEq, Prod.mk.injEq, reduceCtorEq] at h1 <;> obtain ⟨rfl, rfl⟩ := h1 <;> simp_all [Reports]
      | isr b =>
        simp only [Rx.move, Rx.isr] at h1
        split at h1
        · cases h1
        · simp only [Option.some.injEq, Prod.mk.injEq] at h1
          obtain ⟨rfl, rfl⟩ := h1
          have ih := ih (fun x h => absurd h (hu b rfl x))
          simpa [Reports, Bool.or_comm] using ih
  exact this l _ s t (by simp [Rx.start]) h hu

/-- A byte gets lost and is reported. -/
example : ∃ s, Rx.run [.isr 1, .isr 2, .call .overflow, .step, .step, .call .overflow, .step, .step] (Rx.start [0, 0] 2) =
      some (s, [.received 1 true, .received 2 false, .overflow true, .overflow false]) ∧
    Undisturbed [.isr 1, .isr 2, .call .overflow, .step, .step, .call .overflow, .step, .step] (Rx.start [0, 0] 2) := by
  refine ⟨_, rfl, ?_⟩
  simp [Undisturbed, Rx.move, Rx.start, Rx.step, Rx.isr, Ring.put, next, store, Rx.enter]

/-- C73 does not hold: a byte which gets lost between the two accesses of a query to the flag is never reported, neither by this query nor by any later one. -/
theorem C73_violated : ∃ l s t, Rx.run l (Rx.start [0, 0] 2) = some (s, t) ∧ s.pc = .idle ∧ lost t ∧
    ∀ l' s' t', (∀ b, Rx.Move.isr b ∉ l') → Rx.run l' s = some (s', t') → Rx.Ev.overflow true ∉ t ++ t' := by
  refine ⟨[.isr 1, .call .overflow, .step, .isr 2, .step], ⟨⟨[1, 0], 2, 0, 1⟩, false, .idle⟩, [.received 1 true, .received 2 false, .overflow false], by decide, rfl,
    ⟨2, by decide⟩, ?_⟩
  have : ∀ (l : List Rx.Move) (s s' : Rx.State) (t : List Rx.Ev), s.overflow = false → (∀ f, s.pc = .unflag f → f = false) → (∀ b, Rx.Move.isr b ∉ l) →
      Rx.run l s = some (s', t) → Rx.Ev.overflow true ∉ t := by
    intro l
    induction l with
    | nil => intro s s' t _ _ _ h; simp only [Rx.run, Option.some.injEq, Prod.mk.injEq] at h; simp [← h.2]
    | cons mv l ih =>
      intro s s' t ho hp hn h
      obtain ⟨s1, e, t1, h1, h2, rfl⟩ := rx_cons h
      have ih := fun hq hq' => ih s1 s' t1 hq hq' (fun b h => hn b (List.mem_cons_of_mem _ h)) h2
      obtain ⟨r, f, pc⟩ := s
      cases mv with
      | call c =>
        simp only [Rx.move, Option.some.injEq, Prod.mk.injEq] at h1
        obtain ⟨rfl, rfl⟩ := h1
        split at ih
        · exact ih ho (fun f h => by cases c <;> simp [Rx.enter] at h)
        · exact ih ho hp
      | step =>
        cases pc <;> simp only [Rx.move, Rx.step] at h1 <;> (try split at h1) <;>
          simp only [Option.some.injEq, Prod.mk.injEq, reduceCtorEq] at h1 <;> obtain ⟨rfl, rfl⟩ := h1 <;> simp_all
      | isr b => exact absurd (List.mem_cons_self ..) (hn b)
  intro l' s' t' hn h
  simp only [List.mem_append, not_or]
  exact ⟨by decide, this l' _ s' t' rfl (by simp) hn h⟩

/-- There is no false alarm; `f`: a byte got lost since the last query. -/
def NoFalseAlarm : Bool → List Rx.Ev → Prop
  | _, [] => True
  | f, .received _ ok :: t => NoFalseAlarm (f || !ok) t
  | f, .overflow x :: t => (x = true → f = true) ∧ NoFalseAlarm false t
  | f, _ :: t => NoFalseAlarm f t

/-- C73 (part): under every history, a query which reports an overflow does so because a byte got lost since the last query. -/
theorem C73_alarm_partial (storage : List U8) (n : U8) (l : List Rx.Move) (s : Rx.State) (t : List Rx.Ev)
    (h : Rx.run l (Rx.start storage n) = some (s, t)) : NoFalseAlarm false t := by
  have : ∀ (l : List Rx.Move) (s s' : Rx.State) (t : List Rx.Ev) (a : Bool), (s.overflow = true → a = true) → (s.pc = .unflag true → a = true) →
      Rx.run l s = some (s', t) → NoFalseAlarm a t := by
    intro l
    induction l with
    | nil => intro s s' t a _ _ h; simp only [Rx.run, Option.some.injEq, Prod.mk.injEq] at h; rw [← h.2]; trivial
    | cons mv l ih =>
      intro s s' t a ho hp h
      obtain ⟨s1, e, t1, h1, h2, rfl⟩ := rx_cons h
      have ih := fun a hq hq' => ih s1 s' t1 a hq hq' h2
      obtain ⟨r, f, pc⟩ := s
      cases mv with
      | call c =>
        simp only [Rx.move, Option.some.injEq, Prod.mk.injEq] at h1
        obtain ⟨rfl, rfl⟩ := h1
        split at ih
        · exact ih a ho (fun h => by cases c <;> simp [Rx.enter] at h)
        · exact ih a ho hp
      | step =>
        cases pc <;> simp only [Rx.move, Rx.step] at h1 <;> (try split at h1) <;>
          simp only [Option.some.injEq, Prod.mk.injEq, reduceCtorEq] at h1 <;> obtain ⟨rfl, rfl⟩ := h1 <;> cases a <;> simp_all [NoFalseAlarm]
      | isr b =>
        simp only [Rx.move, Rx.isr] at h1
        split at h1
        · cases h1
        · simp only [Option.some.injEq, Prod.mk.injEq] at h1
          obtain ⟨rfl, rfl⟩ := h1
          refine ih _ (fun h => ?_) (fun h => by rw [hp h]; rfl)
          revert h
          dsimp only
          split
          · exact fun h => by rw [ho h]; rfl
          · rename_i hk; simp [hk]
  exact this l _ s t false (by simp [Rx.start]) (by simp [Rx.start]) h

end Rx

/-! ### C74: transmission -/

section Tx
open Tx

theorem line_append (t u : List Tx.Ev) : line (t ++ u) = line t ++ line u := by simp [line]
theorem taken_append (t u : List Tx.Ev) : taken (t ++ u) = taken t ++ taken u := by simp [taken]

theorem tx_cons {mv : Tx.Move} {l : List Tx.Move} {s s' : Tx.State} {t : List Tx.Ev} (h : Tx.run (mv :: l) s = some (s', t)) :
    ∃ s1 e t1, Tx.move s mv = some (s1, e) ∧ Tx.run l s1 = some (s', t1) ∧ t = e ++ t1 := by
  simp only [Tx.run] at h
  cases h1 : Tx.move s mv with
  | none => simp [h1] at h
  | some p =>
    obtain ⟨s1, e⟩ := p
    simp only [h1] at h
    cases h2 : Tx.run l s1 with
    | none => simp [h2] at h
    | some p =>
      obtain ⟨s2, t1⟩ := p
      simp only [h2, Option.some.injEq, Prod.mk.injEq] at h
      exact ⟨s1, e, t1, rfl, by rw [h2, h.1], h.2.symm⟩

/-- The application inside of `serialDrv_write`; `q` are the bytes in the buffer. -/
def TxPcOk (s : Tx.State) (q : List U8) : Tx.Pc → Prop
  | .enable _ => s.txcie = false
  | .direct _ => s.txcie = true ∧ s.busy = false ∧ s.txc = false
  | .full _ nx => nx = next s.ring.size s.ring.write
  | .store _ nx => nx = next s.ring.size s.ring.write ∧ q.length < s.ring.size.toNat - 1
  | .move b nx => nx = next s.ring.size s.ring.write ∧ q.length < s.ring.size.toNat - 1 ∧ s.ring.storage[s.ring.write.toNat]? = some b
  | _ => True

/-- The transmitter, with the bytes `q` in its buffer. -/
structure TxInv (n : U8) (s : Tx.State) (q : List U8) : Prop where
  ok : s.ring.Ok
  size : s.ring.size = n
  content : s.ring.content = q
  off : s.txcie = false → s.busy = false ∧ s.txc = false
  one : s.busy = true → s.txc = false
  on : s.txcie = true → s.busy = true ∨ s.txc = true ∨ ∃ b, s.pc = .direct b
  pc : TxPcOk s q s.pc

theorem txInv_start {storage : List U8} {n : U8} (h2 : 2 ≤ n.toNat) (hl : storage.length = n.toNat) : TxInv n (Tx.start storage n) [] :=
  ⟨.init h2 hl, rfl, Ring.content_init, fun _ => ⟨rfl, rfl⟩, fun h => (by cases h), fun h => (by cases h), trivial⟩

/-- Nothing is overwritten. -/
def NoOverrun (t : List Tx.Ev) : Prop := ∀ b, Tx.Ev.overrun b ∉ t

/-- A byte taken goes behind the bytes in the buffer (with the exception of a byte written to the data register), a byte on the line comes from the front of it. -/
def Flow (s : Tx.State) (q q' : List U8) (e : List Tx.Ev) : Prop :=
  line e ++ q' = q ++ taken e ∨ ∃ b, s.pc = .direct b ∧ line e = [b] ∧ taken e = [b] ∧ q' = q

theorem txInv_move {n : U8} {s : Tx.State} {q : List U8} (h : TxInv n s q) (mv : Tx.Move) :
    ∃ s' e q', Tx.move s mv = some (s', e) ∧ TxInv n s' q' ∧ NoOverrun e ∧ Flow s q q' e := by
  obtain ⟨ok, hn, hc, ho, h1, hon, hp⟩ := h
  obtain ⟨r, txcie, busy, txc, pc⟩ := s
  cases mv with
  | call b =>
    refine ⟨_, [], q, rfl, ?_, by simp [NoOverrun], Or.inl (by simp [line, taken])⟩
    split
    · rename_i hi
      refine ⟨ok, hn, hc, ho, h1, fun h => ?_, trivial⟩
      rcases hon h with h | h | ⟨b, h⟩
      · exact Or.inl h
      · exact Or.inr (Or.inl h)
      · rw [hi] at h; cases h
    · exact ⟨ok, hn, hc, ho, h1, hon, hp⟩
  | sent =>
    refine ⟨_, [], q, rfl, ?_, by simp [NoOverrun], Or.inl (by simp [line, taken])⟩
    dsimp only
    split
    · rename_i hb
      refine ⟨ok, hn, hc, fun h => ?_, fun h => (by cases h), fun _ => Or.inr (Or.inl rfl), ?_⟩
      · have h9 := (ho h).1; dsimp only at h9; rw [h9] at hb; cases hb
      · cases pc <;> simp_all [TxPcOk]
    · exact ⟨ok, hn, hc, ho, h1, hon, hp⟩
  | isr =>
    simp only [Tx.move]
    by_cases hi : (txcie && txc) = true
    · rw [if_pos hi]
      simp only [Bool.and_eq_true] at hi
      obtain ⟨rfl, rfl⟩ := hi
      have hb : busy = false := by
        cases busy with
        | false => rfl
        | true => exact absurd (h1 rfl) (by simp)
      subst hb
      rcases Ring.get_spec ok with ⟨h2, h3⟩ | ⟨b, r', h2, h3, h4, h5, h6, h7⟩
      · refine ⟨⟨r, false, false, false, pc⟩, [], q, by simp only [Tx.isr, h3], ?_, by simp [NoOverrun], Or.inl (by simp [line, taken])⟩
        refine ⟨ok, hn, hc, fun _ => ⟨rfl, rfl⟩, fun h => (by cases h), fun h => (by cases h), ?_⟩
        cases pc <;> simp_all [TxPcOk]
      · refine ⟨⟨r', true, true, false, pc⟩, [.out b], r'.content, by simp [Tx.isr, h2, Tx.udr], ?_, by simp [NoOverrun], Or.inl ?_⟩
        · refine ⟨h3, h4.trans hn, rfl, fun h => (by cases h), fun _ => rfl, fun _ => Or.inl rfl, ?_⟩
          have hl : r'.content.length < q.length := by rw [← hc, h7]; simp
          dsimp only at h4 h5 h6
          cases pc <;> simp only [TxPcOk, h4, h5, h6, Bool.true_eq_false, Bool.false_eq_true, reduceCtorEq, and_false, false_and] at hp ⊢
          · exact hp
          · exact ⟨hp.1, by omega⟩
          · exact ⟨hp.1, by omega, hp.2.2⟩
        · show b :: r'.content = q ++ []
          rw [← hc, h7, List.append_nil]
    · rw [if_neg hi]
      exact ⟨_, [], q, rfl, ⟨ok, hn, hc, ho, h1, hon, hp⟩, by simp [NoOverrun], Or.inl (by simp [line, taken])⟩
  | step =>
    have nodirect : (∀ b, pc ≠ .direct b) → txcie = true → busy = true ∨ txc = true := by
      intro hd h
      rcases hon h with h | h | ⟨b, h⟩
      · exact Or.inl h
      · exact Or.inr h
      · exact absurd h (hd b)
    have flow0 : Flow ⟨r, txcie, busy, txc, pc⟩ q q [] := Or.inl (by simp [line, taken])
    have over0 : NoOverrun [] := by simp [NoOverrun]
    cases pc with
    | idle => exact ⟨_, [], q, rfl, ⟨ok, hn, hc, ho, h1, hon, trivial⟩, over0, flow0⟩
    | check b =>
      have nd := nodirect (by simp)
      cases txcie with
      | true => exact ⟨⟨r, true, busy, txc, .index b⟩, [], q, rfl, ⟨ok, hn, hc, ho, h1, fun _ => (nd rfl).elim Or.inl (fun h => Or.inr (Or.inl h)), trivial⟩, over0, flow0⟩
      | false => exact ⟨⟨r, false, busy, txc, .enable b⟩, [], q, rfl, ⟨ok, hn, hc, ho, h1, fun h => (by cases h), rfl⟩, over0, flow0⟩
    | enable b =>
      have hf : txcie = false := hp
      obtain ⟨hb, ht⟩ := ho hf
      exact ⟨⟨r, true, busy, txc, .direct b⟩, [], q, rfl, ⟨ok, hn, hc, fun h => (by cases h), h1, fun _ => Or.inr (Or.inr ⟨b, rfl⟩), rfl, hb, ht⟩, over0, flow0⟩
    | direct b =>
      obtain ⟨h2, h3, h4⟩ := hp
      dsimp only at h2 h3 h4
      subst h2 h3 h4
      exact ⟨⟨r, true, true, false, .idle⟩, [.out b, .returned b 0 true], q, rfl,
        ⟨ok, hn, hc, fun h => (by cases h), fun _ => rfl, fun _ => Or.inl rfl, trivial⟩, by simp [NoOverrun], Or.inr ⟨b, rfl, rfl, rfl, rfl⟩⟩
    | index b =>
      have nd := nodirect (by simp)
      exact ⟨⟨r, txcie, busy, txc, .full b (next r.size r.write)⟩, [], q, rfl, ⟨ok, hn, hc, ho, h1, fun h => (nd h).elim Or.inl (fun h => Or.inr (Or.inl h)), rfl⟩, over0, flow0⟩
    | full b nx =>
      have nd := nodirect (by simp)
      have hnx : nx = next r.size r.write := hp
      by_cases he : r.read = nx
      · refine ⟨⟨r, txcie, busy, txc, .idle⟩, [.returned b 0 false], q, by simp [Tx.move, Tx.step, he],
          ⟨ok, hn, hc, ho, h1, fun h => (nd h).elim Or.inl (fun h => Or.inr (Or.inl h)), trivial⟩, by simp [NoOverrun], Or.inl (by simp [line, taken])⟩
      · refine ⟨⟨r, txcie, busy, txc, .store b nx⟩, [], q, by simp [Tx.move, Tx.step, he],
          ⟨ok, hn, hc, ho, h1, fun h => (nd h).elim Or.inl (fun h => Or.inr (Or.inl h)), hnx, ?_⟩, over0, flow0⟩
        have := Ring.content_room ok (show r.read ≠ next r.size r.write by rw [← hnx]; exact he)
        rw [← hc]; exact this
    | store b nx =>
      have nd := nodirect (by simp)
      obtain ⟨h2, h3⟩ := hp
      have hw : r.write.toNat < r.storage.length := by have h5 := ok.wr; have h6 := ok.len; dsimp only at h5 h6; omega
      refine ⟨⟨{ r with storage := r.storage.set r.write.toNat b }, txcie, busy, txc, .move b nx⟩, [], q, by simp [Tx.move, Tx.step, Driver.Serial.store, hw],
        ⟨⟨ok.two, by simpa using ok.len, ok.rd, ok.wr⟩, hn, (Ring.content_store ok b).trans hc, ho, h1, fun h => (nd h).elim Or.inl (fun h => Or.inr (Or.inl h)), h2, h3, ?_⟩, over0, flow0⟩
      simp [hw]
    | move b nx =>
      have nd := nodirect (by simp)
      obtain ⟨h2, h3, h4⟩ := hp
      have h2' : nx = next r.size r.write := h2
      have hm := Ring.content_move ok (by rw [hc]; exact h3) h4
      refine ⟨⟨{ r with write := nx }, txcie, busy, txc, .idle⟩, [.returned b 1 true], q ++ [b], rfl,
        ⟨⟨ok.two, ok.len, ok.rd, by rw [h2']; exact next_lt ok.wr⟩, hn, ?_, ho, h1, fun h => (nd h).elim Or.inl (fun h => Or.inr (Or.inl h)), trivial⟩,
        by simp [NoOverrun], Or.inl (by simp [line, taken])⟩
      dsimp only at hm hc ⊢
      rw [h2', hm, hc]

theorem Flow.perm {s : Tx.State} {q q' : List U8} {e : List Tx.Ev} (h : Flow s q q' e) : (line e ++ q').Perm (q ++ taken e) := by
  rcases h with h | ⟨b, _, h1, h2, h3⟩
  · rw [h]
  · rw [h1, h2, h3]; exact List.perm_append_comm

theorem txInv_run {n : U8} : ∀ (l : List Tx.Move) {s : Tx.State} {q : List U8}, TxInv n s q →
    ∃ s' t q', Tx.run l s = some (s', t) ∧ TxInv n s' q' ∧ NoOverrun t ∧ (line t ++ q').Perm (q ++ taken t)
  | [], s, q, h => ⟨s, [], q, rfl, h, by simp [NoOverrun], by simp [line, taken]⟩
  | mv :: l, s, q, h => by
    obtain ⟨s1, e, q1, h1, h2, h3, h4⟩ := txInv_move h mv
    obtain ⟨s2, t, q2, h5, h6, h7, h8⟩ := txInv_run l h2
    refine ⟨s2, e ++ t, q2, by simp only [Tx.run, h1, h5], h6, ?_, ?_⟩
    · intro b hb
      rcases List.mem_append.1 hb with hb | hb
      · exact h3 b hb
      · exact h7 b hb
    · have h9 := h8.append_left (line e)
      have h10 := h4.perm.append_right (taken t)
      rw [← List.append_assoc, ← List.append_assoc] at h9
      rw [line_append, taken_append, ← List.append_assoc]
      exact h9.trans h10

/-- C74 (part): under every history of calls, transmissions and interrupts, where the interrupt may come between any two accesses of the application to the shared variables, every byte taken by the driver
goes on the line at most once, nothing else goes on the line, no byte is overwritten in the transmitter, and no access is outside of the storage: the bytes on the line and at most `n - 1` bytes which wait are the bytes taken, in
some order. -/
theorem C74_once_partial (storage : List U8) (n : U8) (h2 : 2 ≤ n.toNat) (hl : storage.length = n.toNat) (l : List Tx.Move) :
    ∃ s t waiting, Tx.run l (Tx.start storage n) = some (s, t) ∧ NoOverrun t ∧ (line t ++ waiting).Perm (taken t) ∧ waiting.length ≤ n.toNat - 1 := by
  obtain ⟨s, t, q, h, hi, ho, hp⟩ := txInv_run l (txInv_start h2 hl)
  refine ⟨s, t, q, h, ho, by simpa using hp, ?_⟩
  have := Ring.content_lt hi.ok
  rw [hi.content, hi.size] at this
  omega

/-- The application is behind the check whether the interrupt is enabled and in front of the end of the function. -/
def inWindow : Tx.Pc → Bool
  | .index _ | .full _ _ | .store _ _ | .move _ _ => true
  | _ => false

/-- The transmit interrupt does not come between the check whether it is enabled and the storage of the byte. -/
def Quiet : List Tx.Move → Tx.State → Bool
  | [], _ => true
  | mv :: l, s => !(mv == .isr && inWindow s.pc) && (match Tx.move s mv with | none => true | some (s1, _) => Quiet l s1)

theorem Quiet.head {mv : Tx.Move} {l : List Tx.Move} {s : Tx.State} (h : Quiet (mv :: l) s = true) : mv = .isr → inWindow s.pc = false := by
  simp only [Quiet, Bool.and_eq_true] at h
  rintro rfl
  simpa using h.1

theorem Quiet.tail {mv : Tx.Move} {l : List Tx.Move} {s s1 : Tx.State} {e : List Tx.Ev} (h : Quiet (mv :: l) s = true) (h1 : Tx.move s mv = some (s1, e)) : Quiet l s1 = true := by
  simp only [Quiet, Bool.and_eq_true, h1] at h
  exact h.2

/-- Bytes wait only if the interrupt is enabled. -/
structure Ordered (s : Tx.State) (q : List U8) : Prop where
  on : q ≠ [] → s.txcie = true
  direct : ∀ b, s.pc = .direct b → q = []
  window : inWindow s.pc = true → s.txcie = true

theorem ordered_move {n : U8} {s : Tx.State} {q : List U8} (h : TxInv n s q) (ho : Ordered s q) {mv : Tx.Move} (hw : mv = .isr → inWindow s.pc = false) :
    ∃ s' e q', Tx.move s mv = some (s', e) ∧ TxInv n s' q' ∧ Ordered s' q' ∧ line e ++ q' = q ++ taken e := by
  obtain ⟨s', e, q', h1, h2, _, h4⟩ := txInv_move h mv
  have hflow : line e ++ q' = q ++ taken e := by
    rcases h4 with h4 | ⟨b, h5, h6, h7, h8⟩
    · exact h4
    · rw [h8, h6, h7, ho.direct b h5]; rfl
  refine ⟨s', e, q', h1, h2, ?_, hflow⟩
  obtain ⟨r, txcie, busy, txc, pc⟩ := s
  have hp := h.pc
  obtain ⟨o1, o2, o3⟩ := ho
  dsimp only at o1 o2 o3 hp
  cases mv with
  | call b =>
    simp only [Tx.move, Option.some.injEq, Prod.mk.injEq] at h1
    obtain ⟨rfl, rfl⟩ := h1
    have : q' = q := by simpa [line, taken] using hflow
    subst this
    split
    · exact ⟨o1, fun b h => (by cases h), fun h => (by cases h)⟩
    · exact ⟨o1, o2, o3⟩
  | sent =>
    simp only [Tx.move, Option.some.injEq, Prod.mk.injEq] at h1
    obtain ⟨rfl, rfl⟩ := h1
    have : q' = q := by simpa [line, taken] using hflow
    subst this
    split
    · exact ⟨o1, o2, o3⟩
    · exact ⟨o1, o2, o3⟩
  | isr =>
    have hw := hw rfl
    simp only [Tx.move] at h1
    split at h1
    · rename_i hi
      simp only [Bool.and_eq_true] at hi
      obtain ⟨rfl, rfl⟩ := hi
      have hd : ∀ b, pc ≠ .direct b := fun b e => by rw [e] at hp; exact absurd hp.2.2 (by simp)
      rcases Ring.get_spec h.ok with ⟨g1, g2⟩ | ⟨b, r', g2, _⟩
      · simp only [Tx.isr, g2, Option.some.injEq, Prod.mk.injEq] at h1
        obtain ⟨rfl, rfl⟩ := h1
        have : q' = q := by simpa [line, taken] using hflow
        have hq : q = [] := by rw [← h.content, g1]
        rw [this, hq]
        exact ⟨fun h => absurd rfl h, fun b h => absurd h (hd b), fun h => absurd h (by simp only; rw [hw]; simp)⟩
      · simp only [Tx.isr, g2, Option.some.injEq] at h1
        have : s'.txcie = true ∧ s'.pc = pc := by
          simp only [Tx.udr] at h1
          split at h1 <;> simp only [Prod.mk.injEq] at h1 <;> rw [← h1.1] <;> exact ⟨rfl, rfl⟩
        exact ⟨fun _ => this.1, fun b h => absurd (this.2 ▸ h) (hd b), fun _ => this.1⟩
    · simp only [Option.some.injEq, Prod.mk.injEq] at h1
      obtain ⟨rfl, rfl⟩ := h1
      have : q' = q := by simpa [line, taken] using hflow
      subst this
      exact ⟨o1, o2, o3⟩
  | step =>
    have eq0 : e = [] → q' = q := fun he => by subst he; simpa [line, taken] using hflow
    cases pc with
    | idle =>
      simp only [Tx.move, Tx.step, Option.some.injEq, Prod.mk.injEq] at h1
      obtain ⟨rfl, rfl⟩ := h1
      rw [eq0 rfl]; exact ⟨o1, o2, o3⟩
    | check b =>
      simp only [Tx.move, Tx.step, Option.some.injEq, Prod.mk.injEq] at h1
      obtain ⟨rfl, rfl⟩ := h1
      rw [eq0 rfl]
      cases txcie with
      | true => exact ⟨o1, fun b h => (by cases h), fun _ => rfl⟩
      | false => exact ⟨o1, fun b h => (by cases h), fun h => (by cases h)⟩
    | enable b =>
      simp only [Tx.move, Tx.step, Option.some.injEq, Prod.mk.injEq] at h1
      obtain ⟨rfl, rfl⟩ := h1
      rw [eq0 rfl]
      refine ⟨fun _ => rfl, fun _ _ => ?_, fun _ => rfl⟩
      cases q with
      | nil => rfl
      | cons x q => exact absurd (o1 (by simp)) (by rw [show txcie = false from hp]; simp)
    | direct b =>
      simp only [Tx.move, Tx.step, Option.some.injEq, Prod.mk.injEq] at h1
      obtain ⟨rfl, rfl⟩ := h1
      refine ⟨fun _ => ?_, fun b h => (by cases h), fun h => (by cases h)⟩
      simp only [Tx.udr]
      split <;> exact hp.1
    | index b =>
      simp only [Tx.move, Tx.step, Option.some.injEq, Prod.mk.injEq] at h1
      obtain ⟨rfl, rfl⟩ := h1
      rw [eq0 rfl]
      exact ⟨o1, fun b h => (by cases h), fun _ => o3 rfl⟩
    | full b nx =>
      simp only [Tx.move, Tx.step] at h1
      split at h1 <;> simp only [Option.some.injEq, Prod.mk.injEq] at h1 <;> obtain ⟨rfl, rfl⟩ := h1
      · exact ⟨fun _ => o3 rfl, fun b h => (by cases h), fun _ => o3 rfl⟩
      · exact ⟨fun _ => o3 rfl, fun b h => (by cases h), fun h => (by cases h)⟩
    | store b nx =>
      simp only [Tx.move, Tx.step] at h1
      split at h1
      · cases h1
      · simp only [Option.some.injEq, Prod.mk.injEq] at h1
        obtain ⟨rfl, rfl⟩ := h1
        exact ⟨fun _ => o3 rfl, fun b h => (by cases h), fun _ => o3 rfl⟩
    | move b nx =>
      simp only [Tx.move, Tx.step, Option.some.injEq, Prod.mk.injEq] at h1
      obtain ⟨rfl, rfl⟩ := h1
      exact ⟨fun _ => o3 rfl, fun b h => (by cases h), fun h => (by cases h)⟩

theorem ordered_run {n : U8} : ∀ (l : List Tx.Move) {s : Tx.State} {q : List U8}, TxInv n s q → Ordered s q → Quiet l s →
    ∃ s' t q', Tx.run l s = some (s', t) ∧ TxInv n s' q' ∧ Ordered s' q' ∧ line t ++ q' = q ++ taken t
  | [], s, q, h, ho, _ => ⟨s, [], q, rfl, h, ho, by simp [line, taken]⟩
  | mv :: l, s, q, h, ho, hq => by
    obtain ⟨s1, e, q1, h1, h2, h3, h4⟩ := ordered_move h ho (Quiet.head hq)
    obtain ⟨s2, t, q2, h5, h6, h7, h8⟩ := ordered_run l h2 h3 (Quiet.tail hq h1)
    refine ⟨s2, e ++ t, q2, by simp only [Tx.run, h1, h5], h6, h7, ?_⟩
    rw [line_append, taken_append, List.append_assoc, h8, ← List.append_assoc, h4, List.append_assoc]

/-- `k` bytes are sent, each followed by the interrupt. -/
def drain : Nat → List Tx.Move
  | 0 => []
  | k + 1 => .sent :: .isr :: drain k

theorem drain_run {n : U8} : ∀ (q : List U8) {s : Tx.State}, TxInv n s q → Ordered s q → s.pc = .idle →
    ∃ s' t, Tx.run (drain q.length) s = some (s', t) ∧ line t = q
  | [], s, _, _, _ => ⟨s, [], rfl, rfl⟩
  | b :: q, s, h, ho, hi => by
    have hon : s.txcie = true := ho.on (by simp)
    have hbt : s.busy = true ∨ s.txc = true := by
      rcases h.on hon with h | h | ⟨b, h⟩
      · exact Or.inl h
      · exact Or.inr h
      · rw [hi] at h; cases h
    obtain ⟨s1, e1, q1, h1, h2, h3, h4⟩ := ordered_move (mv := .sent) h ho (by simp)
    have hs1 : s1.txcie = true ∧ s1.txc = true ∧ s1.pc = .idle ∧ e1 = [] := by
      simp only [Tx.move, Option.some.injEq, Prod.mk.injEq] at h1
      obtain ⟨rfl, rfl⟩ := h1
      split
      · exact ⟨hon, rfl, hi, rfl⟩
      · rename_i hb
        exact ⟨hon, hbt.resolve_left hb, hi, rfl⟩
    obtain ⟨a1, a2, a3, rfl⟩ := hs1
    have hq1 : q1 = b :: q := by simpa [line, taken] using h4
    subst hq1
    obtain ⟨s2, e2, q2, h5, h6, h7, h8⟩ := ordered_move (mv := .isr) h2 h3 (by rw [a3]; intro; rfl)
    have hs2 : s2.pc = .idle ∧ line e2 = [b] ∧ taken e2 = [] := by
      simp only [Tx.move, a1, a2, Bool.and_self, if_true] at h5
      rcases Ring.get_spec h2.ok with ⟨g1, _⟩ | ⟨b', r', g2, g3, g4, g5, g6, g7⟩
      · rw [h2.content] at g1; cases g1
      · have hb : s1.busy = false := by
          cases hb : s1.busy with
          | false => rfl
          | true => have := h2.one hb; rw [a2] at this; cases this
        rw [h2.content] at g7
        injection g7 with g8 g9
        simp only [Tx.isr, g2, Tx.udr, hb, Bool.false_eq_true, if_false, Option.some.injEq, Prod.mk.injEq] at h5
        obtain ⟨rfl, rfl⟩ := h5
        exact ⟨a3, by rw [g8]; rfl, rfl⟩
    obtain ⟨b1, b2, b3⟩ := hs2
    rw [b2, b3, List.append_nil] at h8
    injection h8 with _ h8
    have h8 : q2 = q := h8
    subst h8
    obtain ⟨s3, t, h9, h10⟩ := drain_run q2 h6 h7 b1
    refine ⟨s3, [] ++ (e2 ++ t), ?_, ?_⟩
    · show Tx.run (.sent :: .isr :: drain q2.length) s = _
      simp only [Tx.run, h1, h5, h9]
    · rw [List.nil_append, line_append, b2, h10]; rfl

/-- C74 (part): if the transmit interrupt does not come between the check whether it is enabled and the storage of the byte, the bytes go on the line in the order in which they were handed over; and after
the last call, all bytes taken go on the line without any further call. -/
theorem C74_order_partial (storage : List U8) (n : U8) (h2 : 2 ≤ n.toNat) (hl : storage.length = n.toNat) (l : List Tx.Move) (hq : Quiet l (Tx.start storage n)) :
    ∃ s t, Tx.run l (Tx.start storage n) = some (s, t) ∧ line t <+: taken t ∧
      (s.pc = .idle → ∃ k s' t', Tx.run (drain k) s = some (s', t') ∧ line (t ++ t') = taken t) := by
  obtain ⟨s, t, q, h, hi, ho, he⟩ := ordered_run l (txInv_start h2 hl) ⟨fun h => absurd rfl h, fun b h => (by cases h), fun h => (by cases h)⟩ hq
  rw [List.nil_append] at he
  refine ⟨s, t, h, ⟨q, he⟩, fun hp => ?_⟩
  obtain ⟨s', t', h1, h3⟩ := drain_run q hi ho hp
  exact ⟨q.length, s', t', h1, by rw [line_append, h3, he]⟩

/-- Three bytes are handed over, with a storage for two; the interrupt comes once, in front of the check of the third call. -/
def three : List Tx.Move :=
  [.call 1, .step, .step, .step, .call 2, .step, .step, .step, .step, .step, .sent, .call 3, .isr, .step, .step, .step, .step, .step]

example : Quiet three (Tx.start [0, 0, 0] 3) = true ∧
    (Tx.run three (Tx.start [0, 0, 0] 3)).map (·.2) = some [.out 1, .returned 1 0 true, .returned 2 1 true, .out 2, .returned 3 1 true] := by decide

/-- C74 does not hold: the first byte is taken (it is on the line), but the result is 0. -/
theorem C74_result_violated (storage : List U8) (n b : U8) :
    ∃ s t, Tx.run [.call b, .step, .step, .step] (Tx.start storage n) = some (s, t) ∧ line t = [b] ∧ ¬ Truthful t := by
  refine ⟨⟨⟨storage, n, 0, 0⟩, true, true, false, .idle⟩, [.out b, .returned b 0 true], rfl, rfl, fun h => ?_⟩
  have := h b 0 true (by simp)
  simp at this

/-- The interrupt comes between the check and the storage of byte 2. -/
def race : List Tx.Move := [.call 1, .step, .step, .step, .call 2, .step, .sent, .isr, .step, .step, .step, .step]

/-- C74 does not hold: if the interrupt comes between the check and the storage of a byte, the byte (result: 1) does not go on the line, however long the application waits; it goes on the line
behind the byte of the next call. -/
theorem C74_order_violated :
    ∃ s t, Tx.run race (Tx.start [0, 0] 2) = some (s, t) ∧ taken t = [1, 2] ∧ line t = [1] ∧
      (∀ l s' t', (∀ mv ∈ l, mv = .sent ∨ mv = .isr) → Tx.run l s = some (s', t') → line (t ++ t') = [1]) ∧
      ∃ s' t', Tx.run [.call 3, .step, .step, .step, .sent, .isr] s = some (s', t') ∧ taken (t ++ t') = [1, 2, 3] ∧ line (t ++ t') = [1, 3, 2] := by
  refine ⟨⟨⟨[2, 0], 2, 0, 1⟩, false, false, false, .idle⟩, [.out 1, .returned 1 0 true, .returned 2 1 true], by decide, by decide, by decide, ?_,
    ⟨⟨[2, 0], 2, 1, 1⟩, true, true, false, .idle⟩, [.out 3, .returned 3 0 true, .out 2], by decide, by decide, by decide⟩
  intro l
  suffices h : ∀ (s s' : Tx.State) (t' : List Tx.Ev), s = ⟨⟨[2, 0], 2, 0, 1⟩, false, false, false, .idle⟩ → (∀ mv ∈ l, mv = .sent ∨ mv = .isr) → Tx.run l s = some (s', t') → t' = [] by
    intro s' t' hl hr
    rw [h _ s' t' rfl hl hr]
    decide
  induction l with
  | nil => intro s s' t' _ _ h; simp only [Tx.run, Option.some.injEq, Prod.mk.injEq] at h; exact h.2.symm
  | cons mv l ih =>
    intro s s' t' hs hl h
    obtain ⟨s1, e, t1, h1, h2, rfl⟩ := tx_cons h
    have : s1 = s ∧ e = [] := by
      rcases hl mv (List.mem_cons_self ..) with rfl | rfl <;> rw [hs] at h1 ⊢ <;> simp [Tx.move] at h1 <;> exact ⟨h1.1.symm, h1.2⟩
    rw [this.1] at h2
    rw [this.2, ih s s' t1 hs (fun mv h => hl mv (List.mem_cons_of_mem _ h)) h2]
    rfl

end Tx

/-! ### C75: printing of a text -/

section Print
open Print

theorem print_cons {mv : Print.Move} {l : List Print.Move} {s s' : Print.State} {t : List Tx.Ev} (h : Print.run (mv :: l) s = some (s', t)) :
    ∃ s1 e t1, Print.move s mv = some (s1, e) ∧ Print.run l s1 = some (s', t1) ∧ t = e ++ t1 := by
  simp only [Print.run] at h
  cases h1 : Print.move s mv with
  | none => simp [h1] at h
  | some p =>
    obtain ⟨s1, e⟩ := p
    simp only [h1] at h
    cases h2 : Print.run l s1 with
    | none => simp [h2] at h
    | some p =>
      obtain ⟨s2, t1⟩ := p
      simp only [h2, Option.some.injEq, Prod.mk.injEq] at h
      exact ⟨s1, e, t1, rfl, by rw [h2, h.1], h.2.symm⟩

/-- The byte of the call in which the application is. -/
def byteOf : Tx.Pc → Option U8
  | .idle => none
  | .check b | .enable b | .direct b | .index b => some b
  | .full b _ | .store b _ | .move b _ => some b

/-- The application is in the call for the first byte of the text to be sent. -/
def InCall (s : Print.State) : Prop := ∀ b, byteOf s.tx.pc = some b → ∃ l, s.text = b :: l

/-- What a step does to the text, and what the driver takes. -/
def Hands (text text' : List U8) (e : List Tx.Ev) : Prop :=
  (text' = text ∧ (taken e = [] ∨ ∃ b l, text = b :: l ∧ taken e = [b])) ∨ ∃ b, text = b :: text' ∧ taken e = [b]

theorem hands_isr {s s1 : Tx.State} {e : List Tx.Ev} (h : Tx.move s .isr = some (s1, e)) : s1.pc = s.pc ∧ taken e = [] := by
  simp only [Tx.move] at h
  split at h
  · simp only [Tx.isr] at h
    split at h
    · cases h
    · simp only [Option.some.injEq, Prod.mk.injEq] at h
      obtain ⟨rfl, rfl⟩ := h
      exact ⟨rfl, rfl⟩
    · simp only [Tx.udr, Option.some.injEq] at h
      split at h <;> simp only [Prod.mk.injEq] at h <;> obtain ⟨rfl, rfl⟩ := h <;> exact ⟨rfl, rfl⟩
  · simp only [Option.some.injEq, Prod.mk.injEq] at h
    obtain ⟨rfl, rfl⟩ := h
    exact ⟨rfl, rfl⟩

theorem hands_move {s s1 : Print.State} {mv : Print.Move} {e : List Tx.Ev} (hc : InCall s) (h : Print.move s mv = some (s1, e)) :
    InCall s1 ∧ Hands s.text s1.text e := by
  obtain ⟨⟨r, txcie, busy, txc, pc⟩, text⟩ := s
  cases mv with
  | sent =>
    simp only [Print.move, Tx.move, Option.map_some, Option.some.injEq, Prod.mk.injEq] at h
    obtain ⟨rfl, rfl⟩ := h
    refine ⟨fun b hb => hc b ?_, Or.inl ⟨rfl, Or.inl rfl⟩⟩
    dsimp only at hb
    split at hb <;> exact hb
  | isr =>
    simp only [Print.move, Option.map_eq_some_iff, Prod.exists, Prod.mk.injEq] at h
    obtain ⟨s2, e2, h1, rfl, rfl⟩ := h
    obtain ⟨h2, h3⟩ := hands_isr h1
    exact ⟨fun b hb => hc b (by dsimp only at hb; rw [h2] at hb; exact hb), Or.inl ⟨rfl, Or.inl h3⟩⟩
  | main =>
    cases pc with
    | idle =>
      simp only [Print.move, if_true] at h
      cases text with
      | nil =>
        simp only [Option.some.injEq, Prod.mk.injEq] at h
        obtain ⟨rfl, rfl⟩ := h
        exact ⟨hc, Or.inl ⟨rfl, Or.inl rfl⟩⟩
      | cons b text =>
        simp only [Tx.move, if_true, Option.map_some, Option.some.injEq, Prod.mk.injEq] at h
        obtain ⟨rfl, rfl⟩ := h
        exact ⟨fun b' hb => ⟨text, by simp only [byteOf, Option.some.injEq] at hb; rw [hb]⟩, Or.inl ⟨rfl, Or.inl rfl⟩⟩
    | check b =>
      simp only [Print.move, reduceCtorEq, if_false, Tx.move, Tx.step, Option.map_some, Option.some.injEq, Prod.mk.injEq] at h
      obtain ⟨rfl, rfl⟩ := h
      refine ⟨fun b' hb => hc b' ?_, Or.inl ⟨rfl, Or.inl rfl⟩⟩
      dsimp only at hb
      split at hb <;> exact hb
    | enable b =>
      simp only [Print.move, reduceCtorEq, if_false, Tx.move, Tx.step, Option.map_some, Option.some.injEq, Prod.mk.injEq] at h
      obtain ⟨rfl, rfl⟩ := h
      exact ⟨hc, Or.inl ⟨rfl, Or.inl rfl⟩⟩
    | direct b =>
      obtain ⟨l, hl⟩ := hc b rfl
      simp only [Print.move, reduceCtorEq, if_false, Tx.move, Tx.step, Option.map_some, Option.some.injEq, Prod.mk.injEq, Tx.udr] at h
      dsimp only at hl
      subst hl
      split at h <;> obtain ⟨rfl, rfl⟩ := h <;> exact ⟨fun b' hb => (by cases hb), Or.inl ⟨rfl, Or.inr ⟨b, l, rfl, rfl⟩⟩⟩
    | index b =>
      simp only [Print.move, reduceCtorEq, if_false, Tx.move, Tx.step, Option.map_some, Option.some.injEq, Prod.mk.injEq] at h
      obtain ⟨rfl, rfl⟩ := h
      exact ⟨hc, Or.inl ⟨rfl, Or.inl rfl⟩⟩
    | full b nx =>
      simp only [Print.move, reduceCtorEq, if_false, Tx.move, Tx.step] at h
      split at h <;> simp only [Option.map_some, Option.some.injEq, Prod.mk.injEq] at h <;> obtain ⟨rfl, rfl⟩ := h
      · exact ⟨hc, Or.inl ⟨rfl, Or.inl rfl⟩⟩
      · exact ⟨fun b' hb => (by cases hb), Or.inl ⟨rfl, Or.inl rfl⟩⟩
    | store b nx =>
      simp only [Print.move, reduceCtorEq, if_false, Tx.move, Tx.step] at h
      split at h
      · cases h
      · simp only [Option.map_some, Option.some.injEq, Prod.mk.injEq] at h
        obtain ⟨rfl, rfl⟩ := h
        exact ⟨hc, Or.inl ⟨rfl, Or.inl rfl⟩⟩
    | move b nx =>
      obtain ⟨l, hl⟩ := hc b rfl
      simp only [Print.move, reduceCtorEq, if_false, Tx.move, Tx.step, Option.map_some, Option.some.injEq, Prod.mk.injEq] at h
      dsimp only at hl
      subst hl
      obtain ⟨rfl, rfl⟩ := h
      exact ⟨fun b' hb => (by cases hb), Or.inr ⟨b, rfl, rfl⟩⟩

/-- Before the first call of `serialDrv_write` has returned. -/
def Fresh (s : Print.State) : Prop :=
  s.tx.busy = false ∧ s.tx.txc = false ∧
    match s.tx.pc with
    | .idle | .check _ | .enable _ => s.tx.txcie = false
    | .direct _ => s.tx.txcie = true
    | _ => False

theorem fresh_move {s s1 : Print.State} {mv : Print.Move} {e : List Tx.Ev} (hf : Fresh s) (h : Print.move s mv = some (s1, e)) :
    (Fresh s1 ∧ s1.text = s.text ∧ taken e = []) ∨ (s1.text = s.text ∧ ∃ b, taken e = [b]) := by
  obtain ⟨⟨r, txcie, busy, txc, pc⟩, text⟩ := s
  obtain ⟨h1, h2, h3⟩ := hf
  dsimp only at h1 h2 h3
  subst h1 h2
  cases mv with
  | sent =>
    simp only [Print.move, Tx.move, Bool.false_eq_true, if_false, Option.map_some, Option.some.injEq, Prod.mk.injEq] at h
    obtain ⟨rfl, rfl⟩ := h
    exact Or.inl ⟨⟨rfl, rfl, h3⟩, rfl, rfl⟩
  | isr =>
    simp only [Print.move, Tx.move, Bool.and_false, Bool.false_eq_true, if_false, Option.map_some, Option.some.injEq, Prod.mk.injEq] at h
    obtain ⟨rfl, rfl⟩ := h
    exact Or.inl ⟨⟨rfl, rfl, h3⟩, rfl, rfl⟩
  | main =>
    cases pc with
    | idle =>
      simp only [Print.move, if_true] at h
      cases text with
      | nil =>
        simp only [Option.some.injEq, Prod.mk.injEq] at h
        obtain ⟨rfl, rfl⟩ := h
        exact Or.inl ⟨⟨rfl, rfl, h3⟩, rfl, rfl⟩
      | cons b text =>
        simp only [Tx.move, if_true, Option.map_some, Option.some.injEq, Prod.mk.injEq] at h
        obtain ⟨rfl, rfl⟩ := h
        exact Or.inl ⟨⟨rfl, rfl, h3⟩, rfl, rfl⟩
    | check b =>
      dsimp only at h3
      subst h3
      simp only [Print.move, reduceCtorEq, if_false, Tx.move, Tx.step, Option.map_some, Option.some.injEq, Prod.mk.injEq] at h
      obtain ⟨rfl, rfl⟩ := h
      exact Or.inl ⟨⟨rfl, rfl, rfl⟩, rfl, rfl⟩
    | enable b =>
      simp only [Print.move, reduceCtorEq, if_false, Tx.move, Tx.step, Option.map_some, Option.some.injEq, Prod.mk.injEq] at h
      obtain ⟨rfl, rfl⟩ := h
      exact Or.inl ⟨⟨rfl, rfl, rfl⟩, rfl, rfl⟩
    | direct b =>
      simp only [Print.move, reduceCtorEq, if_false, Tx.move, Tx.step, Option.map_some, Option.some.injEq, Prod.mk.injEq, Tx.udr, Bool.false_eq_true] at h
      obtain ⟨rfl, rfl⟩ := h
      exact Or.inr ⟨rfl, b, rfl⟩
    | index b => exact h3.elim
    | full b nx => exact h3.elim
    | store b nx => exact h3.elim
    | move b nx => exact h3.elim

/-- After the first call: the first byte is taken, and the part of the text handed over afterwards. -/
def Repeated (text : List U8) (s : Print.State) (tk : List U8) : Prop :=
  ∃ c u p, tk = c :: u ∧ p ++ s.text = text ∧ p.Sublist u

theorem print_run : ∀ (l : List Print.Move) {s s' : Print.State} {t : List Tx.Ev} {text tk : List U8}, InCall s →
    (Fresh s ∧ s.text = text ∧ tk = []) ∨ Repeated text s tk → Print.run l s = some (s', t) →
    (Fresh s' ∧ s'.text = text ∧ tk ++ taken t = []) ∨ Repeated text s' (tk ++ taken t)
  | [], s, s', t, text, tk, _, hp, h => by
    simp only [Print.run, Option.some.injEq, Prod.mk.injEq] at h
    obtain ⟨rfl, rfl⟩ := h
    simpa [taken] using hp
  | mv :: l, s, s', t, text, tk, hc, hp, h => by
    obtain ⟨s1, e, t1, h1, h2, rfl⟩ := print_cons h
    obtain ⟨h3, h4⟩ := hands_move hc h1
    have := print_run l (text := text) (tk := tk ++ taken e) h3 ?_ h2
    · rwa [taken_append, ← List.append_assoc]
    · rcases hp with ⟨hf, h5, rfl⟩ | ⟨c, u, p, rfl, h6, h7⟩
      · rcases fresh_move hf h1 with ⟨h8, h9, h10⟩ | ⟨h9, b, h10⟩
        · exact Or.inl ⟨h8, h9.trans h5, h10⟩
        · exact Or.inr ⟨b, [], [], by rw [h10]; rfl, by rw [h9, h5]; rfl, List.Sublist.slnil⟩
      · right
        rcases h4 with ⟨h8, h9⟩ | ⟨b, h8, h9⟩
        · refine ⟨c, u ++ taken e, p, rfl, by rw [h8, h6], h7.trans (List.sublist_append_left ..)⟩
        · refine ⟨c, u ++ [b], p ++ [b], by rw [h9]; rfl, by rw [← h6, h8, List.append_assoc]; rfl, ?_⟩
          exact h7.append (List.Sublist.refl _)

/-- A history of the print function is a history of the driver. -/
theorem print_tx : ∀ (l : List Print.Move) {s s' : Print.State} {t : List Tx.Ev}, Print.run l s = some (s', t) → ∃ l', Tx.run l' s.tx = some (s'.tx, t)
  | [], s, s', t, h => by
    simp only [Print.run, Option.some.injEq, Prod.mk.injEq] at h
    obtain ⟨rfl, rfl⟩ := h
    exact ⟨[], rfl⟩
  | mv :: l, s, s', t, h => by
    obtain ⟨s1, e, t1, h1, h2, rfl⟩ := print_cons h
    obtain ⟨l', hl⟩ := print_tx l h2
    have hm : (s1.tx = s.tx ∧ e = []) ∨ ∃ m, Tx.move s.tx m = some (s1.tx, e) := by
      cases mv with
      | sent =>
        simp only [Print.move, Option.map_eq_some_iff, Prod.exists, Prod.mk.injEq] at h1
        obtain ⟨s2, e2, h1, rfl, rfl⟩ := h1
        exact Or.inr ⟨_, h1⟩
      | isr =>
        simp only [Print.move, Option.map_eq_some_iff, Prod.exists, Prod.mk.injEq] at h1
        obtain ⟨s2, e2, h1, rfl, rfl⟩ := h1
        exact Or.inr ⟨_, h1⟩
      | main =>
        simp only [Print.move] at h1
        split at h1
        · split at h1
          · simp only [Option.some.injEq, Prod.mk.injEq] at h1
            obtain ⟨rfl, rfl⟩ := h1
            exact Or.inl ⟨rfl, rfl⟩
          · simp only [Option.map_eq_some_iff, Prod.exists, Prod.mk.injEq] at h1
            obtain ⟨s2, e2, h1, rfl, rfl⟩ := h1
            exact Or.inr ⟨_, h1⟩
        · simp only [Option.map_eq_some_iff, Prod.exists, Prod.mk.injEq] at h1
          obtain ⟨s2, e2, h1, rfl, rfl⟩ := h1
          exact Or.inr ⟨_, h1⟩
    rcases hm with ⟨h3, rfl⟩ | ⟨m, h3⟩
    · exact ⟨l', by rw [← h3]; exact hl⟩
    · exact ⟨m :: l', by simp only [Tx.run, h3, hl]⟩

theorem print_start {storage : List U8} {n : U8} {text : List U8} {l : List Print.Move} {s : Print.State} {t : List Tx.Ev}
    (h : Print.run l (Print.start (Tx.start storage n) text) = some (s, t)) :
    (s.text = printed text ∧ taken t = []) ∨ Repeated (printed text) s (taken t) := by
  have := print_run l (s := Print.start (Tx.start storage n) text) (text := printed text) (tk := []) (fun b hb => (by cases hb)) (Or.inl ⟨⟨rfl, rfl, rfl⟩, rfl, rfl⟩) h
  rw [List.nil_append] at this
  rcases this with ⟨_, h1, h2⟩ | h
  · exact Or.inl ⟨h1, h2⟩
  · exact Or.inr h

/-- C75 (part): when the print function is at the end of the text, all bytes of the text were taken by the driver, in the order of the text; every byte taken goes on the line at most once. -/
theorem C75_complete_partial (storage : List U8) (n : U8) (h2 : 2 ≤ n.toNat) (hl : storage.length = n.toNat) (text : List U8) (l : List Print.Move) (s : Print.State) (t : List Tx.Ev)
    (h : Print.run l (Print.start (Tx.start storage n) text) = some (s, t)) (he : s.text = []) :
    (printed text).Sublist (taken t) ∧ ∃ waiting, (line t ++ waiting).Perm (taken t) ∧ waiting.length ≤ n.toNat - 1 := by
  constructor
  · rcases print_start h with ⟨h1, h3⟩ | ⟨c, u, p, h1, h3, h4⟩
    · rw [← h1, he]; exact List.nil_sublist _
    · rw [he, List.append_nil] at h3
      rw [h1, ← h3]
      exact h4.trans (List.sublist_cons_self _ _)
  · obtain ⟨l', h'⟩ := print_tx l h
    obtain ⟨s', t', w, h3, _, h4, h5⟩ := C74_once_partial storage n h2 hl l'
    rw [show (Print.start (Tx.start storage n) text).tx = Tx.start storage n from rfl, h3] at h'
    simp only [Option.some.injEq, Prod.mk.injEq] at h'
    rw [← h'.2]
    exact ⟨w, h4, h5⟩

/-- C75 does not hold: for every text (with at least one byte) printed when the transmitter is idle, and for every history, more bytes are taken than the text has: when all bytes taken are on the line, the line does not
show the text. -/
theorem C75_violated (storage : List U8) (n : U8) (text : List U8) (hne : printed text ≠ []) (l : List Print.Move) (s : Print.State) (t : List Tx.Ev)
    (h : Print.run l (Print.start (Tx.start storage n) text) = some (s, t)) (he : s.text = []) :
    (printed text).length < (taken t).length ∧ ((line t).Perm (taken t) → line t ≠ printed text) := by
  have hlt : (printed text).length < (taken t).length := by
    rcases print_start h with ⟨h1, h3⟩ | ⟨c, u, p, h1, h3, h4⟩
    · exact absurd (h1.symm.trans he) hne
    · rw [he, List.append_nil] at h3
      rw [h1, ← h3, List.length_cons]
      exact Nat.lt_succ_of_le h4.length_le
  refine ⟨hlt, fun hp e => ?_⟩
  have := hp.length_eq
  rw [e] at this
  omega

/-- "Hi" is printed as "HHi". -/
def hi : List Print.Move :=
  [.main, .main, .main, .main, .main, .main, .main, .main, .main, .main, .sent, .isr, .main, .main, .main, .main, .main, .main, .sent, .isr, .sent, .isr]

example : (Print.run hi (Print.start (Tx.start [0, 0] 2) [0x48, 0x69, 0])).map (fun r => (r.1.text, line r.2)) = some ([], [0x48, 0x48, 0x69]) := by decide

end Print
end Vscp.SerialProps
