/-
Property theorems: exactly which transfers of several elements of a cyclic buffer leave the storage (C07).
-/
import Verif.Props.Util

namespace Vscp.Util
open Vscp.Spec

theorem copyCells_length {α} (src : List α) (so : Nat) (dst : List α) (d n : Nat) (r : List α)
    (h : copyCells src so dst d n = some r) : r.length = dst.length := by
  induction n generalizing r with
  | zero => simp only [copyCells, Option.some.injEq] at h; rw [← h]
  | succ n ih =>
    simp only [copyCells, bind, Option.bind_eq_some_iff] at h
    obtain ⟨s, h1, x, h2, h3⟩ := h
    unfold wr at h3
    split at h3
    · rw [Option.some.injEq] at h3; rw [← h3]; simpa using ih s h1
    · cases h3

theorem copyCells_dst {α} (src : List α) (so : Nat) (dst : List α) (d n : Nat) (hn : 1 ≤ n)
    (h : dst.length < d + n) : copyCells src so dst d n = none := by
  obtain ⟨n, rfl⟩ : ∃ k, n = k + 1 := ⟨n - 1, by omega⟩
  cases hc : copyCells src so dst d (n + 1) with
  | none => rfl
  | some r =>
    simp only [copyCells, bind, Option.bind_eq_some_iff] at hc
    obtain ⟨s, h1, x, h2, h3⟩ := hc
    have := copyCells_length _ _ _ _ _ _ h1
    unfold wr at h3
    split at h3
    · omega
    · cases h3

theorem copyCells_src {α} (src : List α) (so : Nat) (dst : List α) (d n : Nat) (hn : 1 ≤ n)
    (h : src.length < so + n) : copyCells src so dst d n = none := by
  obtain ⟨n, rfl⟩ : ∃ k, n = k + 1 := ⟨n - 1, by omega⟩
  cases hc : copyCells src so dst d (n + 1) with
  | none => rfl
  | some r =>
    simp only [copyCells, bind, Option.bind_eq_some_iff] at hc
    obtain ⟨s, h1, x, h2, h3⟩ := hc
    rw [List.getElem?_eq_none (by omega)] at h2
    cases h2

/-- The number of steps from slot `i` up to slot `j` in a ring of `n` slots. -/
def dist (n i j : Nat) : Nat := if i ≤ j then j - i else j + n - i

theorem dist_next {n i j : Nat} (hi : i < n) (hj : j < n) (h : i ≠ j) : dist n ((i + 1) % n) j = dist n i j - 1 := by
  rw [mod_once (by omega)]
  unfold dist
  repeat' split
  all_goals omega

theorem writeLoop_cross {α} {n k : Nat} (m : Nat) (elem : List α) (hk : 1 ≤ k) (hn : 1 ≤ n) :
    ∀ (cb : CyclicBuffer α) (nx : U8) (src p : Nat) (written : U8),
      cb.num.toNat = n → cb.elemSize.toNat = k → cb.storage.length < (n + 1) * k →
      cb.readIndex.toNat < n → nx.toNat < n → p ≤ n → n < p + min m (dist n nx.toNat cb.readIndex.toNat) →
      writeLoop m cb nx elem src (p * k) written = none := by
  induction m with
  | zero => intro cb nx src p written _ _ _ _ _ hp h; omega
  | succ m ih =>
    intro cb nx src p written h1 h2 h3 h4 h5 h6 h7
    have hn256 : n < 256 := by rw [← h1]; exact cb.num.isLt
    have hne : cb.readIndex ≠ nx := by
      intro e
      rw [e, dist, if_pos (Nat.le_refl _)] at h7
      omega
    have hnn : nx.toNat ≠ cb.readIndex.toNat := fun e => hne (BitVec.eq_of_toNat_eq e.symm)
    rw [writeLoop, if_pos hne]
    simp only [bind, Option.bind_eq_none_iff]
    intro st hst
    rw [h2] at hst
    rw [nextIndex_eq (by omega), h1]
    intro nx' hnx'
    rw [Option.some.injEq] at hnx'
    have hl := copyCells_length _ _ _ _ _ _ hst
    by_cases hpn : p = n
    · rw [copyCells_dst _ _ _ _ _ hk (by rw [hpn]; rw [Nat.succ_mul] at h3; exact h3)] at hst
      cases hst
    · have hx : nx'.toNat = (nx.toNat + 1) % n := by rw [← hnx']; exact ofNat_mod_toNat _ _ hn hn256
      have hpk : p * k + k = (p + 1) * k := (Nat.succ_mul p k).symm
      rw [h2, hpk]
      refine ih _ nx' _ (p + 1) _ h1 h2 ?_ h4 ?_ (by omega) ?_
      · simpa [hl] using h3
      · rw [hx]; exact Nat.mod_lt _ (by omega)
      · simp only [hx, dist_next h5 h4 hnn]
        omega

theorem readLoop_cross {α} {n k : Nat} (m : Nat) (hk : 1 ≤ k) (hn : 1 ≤ n) :
    ∀ (cb : CyclicBuffer α) (elem : List α) (p dst : Nat) (read : U8),
      cb.num.toNat = n → cb.elemSize.toNat = k → cb.storage.length < (n + 1) * k →
      cb.readIndex.toNat < n → cb.writeIndex.toNat < n → p ≤ n →
      n < p + min m (dist n cb.readIndex.toNat cb.writeIndex.toNat) →
      readLoop m cb elem (p * k) dst read = none := by
  induction m with
  | zero => intro cb elem p dst read _ _ _ _ _ hp h; omega
  | succ m ih =>
    intro cb elem p dst read h1 h2 h3 h4 h5 h6 h7
    have hn256 : n < 256 := by rw [← h1]; exact cb.num.isLt
    have hne : cb.readIndex ≠ cb.writeIndex := by
      intro e
      rw [e, dist, if_pos (Nat.le_refl _)] at h7
      omega
    have hnn : cb.readIndex.toNat ≠ cb.writeIndex.toNat := fun e => hne (BitVec.eq_of_toNat_eq e)
    rw [readLoop, if_pos hne]
    simp only [bind, Option.bind_eq_none_iff]
    rw [nextIndex_eq (by omega), h1]
    intro nx' hnx' el hel
    rw [h2] at hel
    rw [Option.some.injEq] at hnx'
    by_cases hpn : p = n
    · rw [copyCells_src _ _ _ _ _ hk (by rw [hpn]; rw [Nat.succ_mul] at h3; exact h3)] at hel
      cases hel
    · have hx : nx'.toNat = (cb.readIndex.toNat + 1) % n := by rw [← hnx']; exact ofNat_mod_toNat _ _ hn hn256
      have hpk : p * k + k = (p + 1) * k := (Nat.succ_mul p k).symm
      rw [h2, hpk]
      refine ih _ el (p + 1) _ _ h1 h2 h3 ?_ h5 (by omega) ?_
      · simp only [hx]; exact Nat.mod_lt _ (by omega)
      · simp only [hx, dist_next h4 h5 hnn]
        omega

/-- A queue in the cyclic buffer: the free slots and the used slots. -/
theorem Rep.dist_write {α n k} {cb : CyclicBuffer α} {q : List (List α)} (h : Rep n k cb q) :
    dist n ((cb.writeIndex.toNat + 1) % n) cb.readIndex.toNat = n - 1 - q.length := by
  have hr := h.hr
  have hq := h.hq
  rw [h.hw, Nat.mod_add_mod, mod_once (by omega)]
  unfold dist
  repeat' split
  all_goals omega

theorem Rep.dist_read {α n k} {cb : CyclicBuffer α} {q : List (List α)} (h : Rep n k cb q) :
    dist n cb.readIndex.toNat cb.writeIndex.toNat = q.length := by
  have hr := h.hr
  have hq := h.hq
  rw [h.hw, mod_once (by omega)]
  unfold dist
  repeat' split
  all_goals omega

theorem writeLoop_storage {α} (m : Nat) (elem : List α) : ∀ (cb : CyclicBuffer α) (nx : U8) (src dst : Nat) (written : U8) (r : U8) (cb' : CyclicBuffer α),
    writeLoop m cb nx elem src dst written = some (r, cb') → cb'.storage.length = cb.storage.length := by
  induction m with
  | zero => intro cb nx src dst written r cb' h; simp only [writeLoop, Option.some.injEq, Prod.mk.injEq] at h; rw [h.2]
  | succ m ih =>
    intro cb nx src dst written r cb' h
    rw [writeLoop] at h
    split at h
    · simp only [bind, Option.bind_eq_some_iff] at h
      obtain ⟨st, h1, nx', h2, h3⟩ := h
      rw [ih _ _ _ _ _ _ _ h3]
      exact copyCells_length _ _ _ _ _ _ h1
    · simp only [Option.some.injEq, Prod.mk.injEq] at h; rw [h.2]

theorem readLoop_storage {α} (m : Nat) : ∀ (cb : CyclicBuffer α) (elem : List α) (src dst : Nat) (read : U8) (r : U8) (cb' : CyclicBuffer α)
    (el : List α), readLoop m cb elem src dst read = some (r, cb', el) → cb'.storage = cb.storage := by
  induction m with
  | zero => intro cb elem src dst read r cb' el h; simp only [readLoop, Option.some.injEq, Prod.mk.injEq] at h; rw [h.2.1]
  | succ m ih =>
    intro cb elem src dst read r cb' el h
    rw [readLoop] at h
    split at h
    · simp only [bind, Option.bind_eq_some_iff] at h
      obtain ⟨nx', h1, st, h2, h3⟩ := h
      rw [ih _ _ _ _ _ _ _ _ h3]
    · simp only [Option.some.injEq, Prod.mk.injEq] at h; rw [h.2.1]

/-- The number of elements which were accepted by a history of single writes and reads. -/
def putCount {α : Type} : List (QOut (List α)) → Nat
  | [] => 0
  | .accepted true :: os => putCount os + 1
  | _ :: os => putCount os

/-- The number of elements which were taken out by a history of single writes and reads. -/
def getCount {α : Type} : List (QOut (List α)) → Nat
  | [] => 0
  | .taken (some _) :: os => getCount os + 1
  | _ :: os => getCount os

theorem cbStep_read {α} {n k : Nat} {cb cb' : CyclicBuffer α} {q : List (List α)} (h : Rep n k cb q) (room : List α)
    (op : QOp (List α)) (o : QOut (List α)) (hs : cbStep room cb op = some (cb', o)) :
    cb'.readIndex.toNat = (cb.readIndex.toNat + getCount [o]) % n ∧ cb'.storage.length = cb.storage.length := by
  have hr := Nat.mod_eq_of_lt h.hr
  cases op with
  | put e =>
    simp only [cbStep, bind, Option.bind_eq_some_iff] at hs
    obtain ⟨⟨r, cb1⟩, h1, h2⟩ := hs
    simp only [Option.some.injEq, Prod.mk.injEq] at h2
    obtain ⟨rfl, rfl⟩ := h2
    simp only [getCount, Nat.add_zero, hr]
    simp only [cyclicBufferWrite, bind] at h1
    split at h1
    · simp only [Option.bind_eq_some_iff] at h1
      obtain ⟨nx, h2, h3⟩ := h1
      refine ⟨?_, writeLoop_storage _ _ _ _ _ _ _ _ _ h3⟩
      rw [show (1 : U8).toNat = 0 + 1 from rfl, writeLoop] at h3
      split at h3
      · simp only [bind, Option.bind_eq_some_iff] at h3
        obtain ⟨st, h4, nx', h5, h6⟩ := h3
        simp only [writeLoop, Option.some.injEq, Prod.mk.injEq] at h6
        rw [← h6.2]
      · simp only [Option.some.injEq, Prod.mk.injEq] at h3
        rw [h3.2]
    · simp only [Option.some.injEq, Prod.mk.injEq] at h1
      rw [h1.2]; exact ⟨rfl, rfl⟩
  | get =>
    simp only [cbStep, bind, Option.bind_eq_some_iff] at hs
    obtain ⟨⟨r, cb1, el⟩, h1, h2⟩ := hs
    simp only [Option.some.injEq, Prod.mk.injEq] at h2
    obtain ⟨rfl, rfl⟩ := h2
    simp only [cyclicBufferRead] at h1
    refine ⟨?_, by rw [readLoop_storage _ _ _ _ _ _ _ _ _ h1]⟩
    rw [show (1 : U8).toNat = 0 + 1 from rfl, readLoop] at h1
    split at h1
    · simp only [bind, Option.bind_eq_some_iff] at h1
      obtain ⟨nx, h3, st, h4, h5⟩ := h1
      simp only [readLoop, Option.some.injEq, Prod.mk.injEq] at h5
      rw [nextIndex_eq (by rw [h.hnum]; exact h.hn), Option.some.injEq, h.hnum] at h3
      obtain ⟨rfl, rfl, rfl⟩ := h5
      rw [← h3]
      exact ofNat_mod_toNat _ _ h.hn h.n_lt
    · simp only [Option.some.injEq, Prod.mk.injEq] at h1
      obtain ⟨rfl, rfl, rfl⟩ := h1
      simp [getCount, hr]

theorem qRun_counts {α : Type} (cap : Nat) : ∀ (ops : List (QOp (List α))) (q : List (List α)),
    putCount (qRun cap q ops).2 + q.length = getCount (qRun cap q ops).2 + (qRun cap q ops).1.length := by
  intro ops
  induction ops with
  | nil => intro q; simp [qRun, putCount, getCount]
  | cons op ops ih =>
    intro q
    have := ih (qStep cap q op).1
    cases op with
    | put e =>
      simp only [qRun, qStep] at this ⊢
      split at this
      · rename_i hc
        simp only [if_pos hc, putCount, getCount, List.length_append, List.length_cons, List.length_nil] at this ⊢
        omega
      · rename_i hc
        simp only [if_neg hc, putCount, getCount] at this ⊢
        omega
    | get =>
      cases q with
      | nil => simpa [qRun, qStep, putCount, getCount] using this
      | cons e q =>
        simp only [qRun, qStep, putCount, getCount, List.length_cons] at this ⊢
        omega

theorem cbRun_read {α} {n k : Nat} (room : List α) (hroom : room.length = k) : ∀ (ops : List (QOp (List α))) (cb cb' : CyclicBuffer α)
    (q : List (List α)) (os : List (QOut (List α))), Rep n k cb q → (∀ op ∈ ops, sized k op) → cbRun room cb ops = some (cb', os) →
    cb'.readIndex.toNat = (cb.readIndex.toNat + getCount os) % n ∧ cb'.storage.length = cb.storage.length := by
  intro ops
  induction ops with
  | nil =>
    intro cb cb' q os h _ hr
    simp only [cbRun, Option.some.injEq, Prod.mk.injEq] at hr
    obtain ⟨rfl, rfl⟩ := hr
    simp [getCount, Nat.mod_eq_of_lt h.hr]
  | cons op ops ih =>
    intro cb cb' q os h hs hr
    simp only [cbRun, bind, Option.bind_eq_some_iff] at hr
    obtain ⟨⟨cb1, o⟩, h1, ⟨cb2, os2⟩, h2, h3⟩ := hr
    simp only [Option.some.injEq, Prod.mk.injEq] at h3
    obtain ⟨rfl, rfl⟩ := h3
    obtain ⟨cb1', h4, h5⟩ := cbStep_refines h room hroom op (hs op (by simp))
    rw [h1, Option.some.injEq, Prod.mk.injEq] at h4
    obtain ⟨rfl, ho⟩ := h4
    obtain ⟨h6, h7⟩ := cbStep_read h room op o h1
    obtain ⟨h8, h9⟩ := ih cb1 cb2 _ os2 h5 (fun x hx => hs x (by simp [hx])) h2
    refine ⟨?_, by rw [h9, h7]⟩
    have hg : getCount (o :: os2) = getCount [o] + getCount os2 := by
      cases o with
      | accepted b => simp [getCount]
      | taken e => cases e <;> simp [getCount] <;> omega
    rw [h8, h6, hg, Nat.mod_add_mod, Nat.add_assoc]

/-- The positions in the storage after a history of single operations are determined by the numbers of elements put in and
taken out so far. -/
theorem positions {α : Type} (storage room : List α) (size elemSize : U8)
    (hlen : storage.length = size.toNat) (he : 1 ≤ elemSize.toNat)
    (hn : elemSize.toNat ≤ size.toNat) (hroom : room.length = elemSize.toNat)
    (ops : List (QOp (List α))) (hops : ∀ op ∈ ops, sized elemSize.toNat op)
    (cb0 cb : CyclicBuffer α) (os : List (QOut (List α)))
    (hinit : cyclicBufferInit storage size elemSize = some cb0)
    (hrun : cbRun room cb0 ops = some (cb, os)) :
    let n := size.toNat / elemSize.toNat
    Rep n elemSize.toNat cb (qRun (n - 1) [] ops).1 ∧ cb.readIndex.toNat = getCount os % n ∧ cb.writeIndex.toNat = putCount os % n ∧
      cb.storage.length < (n + 1) * elemSize.toNat := by
  intro n
  obtain ⟨cb0', hi, hst, hrep0⟩ := init_rep storage size elemSize (by omega) he hn
  rw [hinit, Option.some.injEq] at hi; subst hi
  obtain ⟨cb1, h1, hrep⟩ := cbRun_refines room hroom ops cb0 [] hrep0 hops
  obtain ⟨h2, h3⟩ := cbRun_read room hroom ops cb0 cb [] os hrep0 hops hrun
  rw [hrun, Option.some.injEq, Prod.mk.injEq] at h1
  obtain ⟨hcb, ho⟩ := h1; subst hcb
  have h0 : cb0.readIndex = 0 := by
    rw [cyclicBufferInit] at hinit
    split at hinit
    · cases hinit
    · rw [Option.some.injEq] at hinit; rw [← hinit]
  rw [h0] at h2
  simp only [Nat.zero_add, BitVec.ofNat_eq_ofNat, BitVec.toNat_ofNat, Nat.zero_mod] at h2
  have hc := qRun_counts (n - 1) ops ([] : List (List α))
  rw [← ho] at hc
  refine ⟨hrep, h2, ?_, ?_⟩
  · rw [hrep.hw, h2, Nat.mod_add_mod]
    simp only [List.length_nil, Nat.add_zero] at hc
    rw [hc]
  · rw [h3, hst, hlen, Nat.add_mul, Nat.one_mul, Nat.mul_comm]
    have := Nat.div_add_mod size.toNat elemSize.toNat
    have := Nat.mod_lt size.toNat (show elemSize.toNat > 0 by omega)
    show _ < elemSize.toNat * (size.toNat / elemSize.toNat) + _
    omega

/-- C07, exactly when it fails: in a buffer whose memory is what was given at the initialisation, after any history of single
operations, a write of several elements leaves the memory if and only if the elements which fit, placed one after the other
behind the last one written, do not end within the memory.  Where the last one was written follows from the number of
elements written so far. -/
theorem C07_multi_write_exact {α : Type} (storage room : List α) (size elemSize : U8)
    (hlen : storage.length = size.toNat) (he : 1 ≤ elemSize.toNat)
    (hn : elemSize.toNat ≤ size.toNat) (hroom : room.length = elemSize.toNat)
    (ops : List (QOp (List α))) (hops : ∀ op ∈ ops, sized elemSize.toNat op)
    (cb0 cb : CyclicBuffer α) (os : List (QOut (List α)))
    (hinit : cyclicBufferInit storage size elemSize = some cb0)
    (hrun : cbRun room cb0 ops = some (cb, os))
    (es : List (List α)) (hes : ∀ e ∈ es, e.length = elemSize.toNat)
    (maxNum : U8) (hmax : maxNum.toNat = es.length) :
    let n := size.toNat / elemSize.toNat
    let q := (qRun (n - 1) [] ops).1
    cyclicBufferWrite cb es.flatten maxNum = none ↔ n < putCount os % n + min es.length (n - 1 - q.length) := by
  intro n q
  obtain ⟨hrep, -, hw, hst⟩ := positions storage room size elemSize hlen he hn hroom ops hops cb0 cb os hinit hrun
  constructor
  · intro h
    refine Nat.lt_of_not_le fun hle => ?_
    obtain ⟨cb', hx, -⟩ := multi_write_rep cb _ hrep es hes es.flatten maxNum hmax
      (by rw [flatten_length es _ hes]; exact Nat.le_refl _) (flatten_getElem? es _ hes) (by rw [hw]; exact hle)
    rw [h] at hx
    cases hx
  · intro h
    have hp : 0 < maxNum := by
      rw [BitVec.lt_def]
      have h5 : putCount os % n < n := Nat.mod_lt _ hrep.hn
      show 0 < maxNum.toNat
      omega
    rw [cyclicBufferWrite, if_pos hp, nextIndex_eq (by rw [hrep.hnum]; exact hrep.hn), hrep.hnum]
    simp only [bind, Option.bind_some]
    rw [hrep.helem]
    have hnx : (BitVec.ofNat 8 ((cb.writeIndex.toNat + 1) % n)).toNat = (cb.writeIndex.toNat + 1) % n := ofNat_mod_toNat _ _ hrep.hn hrep.n_lt
    refine writeLoop_cross maxNum.toNat _ he hrep.hn cb _ 0 cb.writeIndex.toNat 0 hrep.hnum hrep.helem hst hrep.hr ?_ ?_ ?_
    · rw [hnx]; exact Nat.mod_lt _ hrep.hn
    · exact Nat.le_of_lt hrep.w_lt
    · rw [hnx, hrep.dist_write, hmax, hw]; exact h

/-- C07, exactly when it fails for reads: a read of several elements leaves the memory if and only if the elements to be taken
out, expected one after the other from the oldest one on, do not end within the memory. -/
theorem C07_multi_read_exact {α : Type} (storage room : List α) (size elemSize : U8)
    (hlen : storage.length = size.toNat) (he : 1 ≤ elemSize.toNat)
    (hn : elemSize.toNat ≤ size.toNat) (hroom : room.length = elemSize.toNat)
    (ops : List (QOp (List α))) (hops : ∀ op ∈ ops, sized elemSize.toNat op)
    (cb0 cb : CyclicBuffer α) (os : List (QOut (List α)))
    (hinit : cyclicBufferInit storage size elemSize = some cb0)
    (hrun : cbRun room cb0 ops = some (cb, os))
    (elem : List α) (maxNum : U8) (hmem : maxNum.toNat * elemSize.toNat ≤ elem.length) :
    let n := size.toNat / elemSize.toNat
    let q := (qRun (n - 1) [] ops).1
    cyclicBufferRead cb elem maxNum = none ↔ n < getCount os % n + min maxNum.toNat q.length := by
  intro n q
  obtain ⟨hrep, hr, -, hst⟩ := positions storage room size elemSize hlen he hn hroom ops hops cb0 cb os hinit hrun
  constructor
  · intro h
    refine Nat.lt_of_not_le fun hle => ?_
    obtain ⟨cb', el, hx, -⟩ := multi_read_rep cb _ hrep elem maxNum hmem (by rw [hr]; exact hle)
    rw [h] at hx
    cases hx
  · intro h
    rw [cyclicBufferRead, hrep.helem]
    refine readLoop_cross maxNum.toNat he hrep.hn cb elem cb.readIndex.toNat 0 0 hrep.hnum hrep.helem hst hrep.hr hrep.w_lt
      (Nat.le_of_lt hrep.hr) ?_
    rw [hrep.dist_read, hr]; exact h

/-- Both sides of both statements occur: with four slots, three elements put in and taken out, a write of two elements leaves the
memory, a write of one does not. -/
example : ∃ cb0 cb : CyclicBuffer U8, ∃ os, cyclicBufferInit [0, 0, 0, 0] 4 1 = some cb0 ∧
    cbRun [0] cb0 [.put [1], .put [2], .put [3], .get, .get, .get] = some (cb, os) ∧ putCount os = 3 ∧ getCount os = 3 ∧
    cyclicBufferWrite cb [7, 8] 2 = none ∧ (cyclicBufferWrite cb [7] 1).isSome = true :=
  ⟨_, _, _, rfl, rfl, rfl, rfl, rfl, rfl⟩

end Vscp.Util
