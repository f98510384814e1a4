/-
Properties C06 - C08: cyclic buffer, zone index.
-/
import Verif.Lemmas.Util

namespace Vscp.Util
open Vscp.Spec

/-! ### C06 single element transfers -/

/-- One API call transferring a single element.  `room` is the element memory the caller passes to
the read function. -/
def cbStep {α : Type} (room : List α) (cb : CyclicBuffer α) :
    QOp (List α) → Option (CyclicBuffer α × QOut (List α))
  | .put e => do
    let (n, cb) ← cyclicBufferWrite cb e 1
    some (cb, .accepted (n == 1))
  | .get => do
    let (n, cb, m) ← cyclicBufferRead cb room 1
    some (cb, .taken (if n = 1 then some m else none))

/-- A sequence of such calls; `none` as soon as one of them is undefined behaviour. -/
def cbRun {α : Type} (room : List α) : CyclicBuffer α → List (QOp (List α)) →
    Option (CyclicBuffer α × List (QOut (List α)))
  | cb, [] => some (cb, [])
  | cb, op :: ops => do
    let (cb, o) ← cbStep room cb op
    let (cb, os) ← cbRun room cb ops
    some (cb, o :: os)

/-- Every element written has the element size of the buffer. -/
def sized {α : Type} (k : Nat) : QOp (List α) → Prop
  | .put e => e.length = k
  | .get => True

theorem cbStep_refines {α} {n k : Nat} {cb : CyclicBuffer α} {q : List (List α)}
    (h : Rep n k cb q) (room : List α) (hroom : room.length = k) (op : QOp (List α))
    (hop : sized k op) :
    ∃ cb', cbStep room cb op = some (cb', (qStep (n - 1) q op).2) ∧
      Rep n k cb' (qStep (n - 1) q op).1 := by
  have hn := h.n_lt
  have hq := h.hq
  cases op with
  | put e =>
    have hw := h.w_lt
    obtain ⟨cb', hl, hrep, -⟩ := writeLoop_spec 1 e cb q [e] 0 0 h rfl
      (by intro x hx; simp at hx; rw [hx]; exact hop)
      (by have : e.length = k := hop
          simp [this])
      (by intro i hi t ht; simp at hi; subst hi; simp)
      (by omega)
    refine ⟨cb', ?_, ?_⟩
    · rw [cbStep, cyclicBufferWrite, if_pos (by decide), nextIndex_eq (by rw [h.hnum]; exact h.hn),
        h.helem, h.hnum]
      simp only [Option.bind_eq_bind, Option.bind_some]
      rw [show (1 : U8).toNat = 1 from rfl, hl]
      simp only [Option.bind_some, qStep]
      by_cases hc : q.length < n - 1
      · have : min 1 (n - 1 - q.length) = 1 := by omega
        simp [hc, this]
      · have : min 1 (n - 1 - q.length) = 0 := by omega
        simp [hc, this]
    · simp only [qStep]
      by_cases hc : q.length < n - 1
      · simp only [hc, if_true]
        rw [List.take_of_length_le (by simp; omega)] at hrep
        exact hrep
      · have : n - 1 - q.length = 0 := by omega
        simp only [hc, if_false]
        simpa [this] using hrep
  | get =>
    have hr := h.hr
    obtain ⟨cb', m, hl, hrep, -, hmlen, hcop, -⟩ := readLoop_spec 1 cb q room 0 0 h (by omega)
      (by omega)
    refine ⟨cb', ?_, ?_⟩
    · rw [cbStep, cyclicBufferRead, h.helem, show (1 : U8).toNat = 1 from rfl, hl]
      simp only [Option.bind_eq_bind, Option.bind_some, qStep]
      cases q with
      | nil => simp
      | cons e q =>
        have hmin : min 1 (e :: q).length = 1 := by simp only [List.length_cons]; omega
        have hm : m = e := by
          apply List.ext_getElem?
          intro t
          by_cases ht : t < k
          · have := hcop 0 (by omega) t ht
            simpa using this
          · have hek : e.length = k := by
              have := (h.hc 0 (by simp)).1
              simpa using this
            rw [List.getElem?_eq_none (by omega), List.getElem?_eq_none (by omega)]
        simp [hm]
    · cases q with
      | nil => simpa [qStep] using hrep
      | cons e q => simpa [qStep] using hrep

theorem cbRun_refines {α} {n k : Nat} (room : List α) (hroom : room.length = k)
    (ops : List (QOp (List α))) : ∀ (cb : CyclicBuffer α) (q : List (List α)),
    Rep n k cb q → (∀ op ∈ ops, sized k op) →
    ∃ cb', cbRun room cb ops = some (cb', (qRun (n - 1) q ops).2) ∧
      Rep n k cb' (qRun (n - 1) q ops).1 := by
  induction ops with
  | nil => intro cb q h _; exact ⟨cb, rfl, h⟩
  | cons op ops ih =>
    intro cb q h hops
    obtain ⟨cb1, h1, hrep1⟩ := cbStep_refines h room hroom op (hops op (by simp))
    obtain ⟨cb2, h2, hrep2⟩ := ih cb1 _ hrep1 (fun o ho => hops o (by simp [ho]))
    refine ⟨cb2, ?_, ?_⟩
    · simp [cbRun, h1, h2, qRun]
    · simpa [qRun] using hrep2

/-- Initialisation gives the empty queue. -/
theorem init_rep {α} (storage : List α) (size elemSize : U8)
    (hlen : size.toNat ≤ storage.length) (he : 1 ≤ elemSize.toNat)
    (hn : elemSize.toNat ≤ size.toNat) :
    ∃ cb, cyclicBufferInit storage size elemSize = some cb ∧ cb.storage = storage ∧
      Rep (size.toNat / elemSize.toNat) elemSize.toNat cb [] := by
  have hs := size.isLt
  have hdiv : size.toNat / elemSize.toNat ≤ size.toNat := Nat.div_le_self ..
  have h1 : 1 ≤ size.toNat / elemSize.toNat := (Nat.one_le_div_iff (by omega)).mpr hn
  refine ⟨⟨storage, elemSize, BitVec.ofNat 8 (size.toNat / elemSize.toNat), 0, 0⟩,
    by rw [cyclicBufferInit, if_neg]; intro h; rw [h] at he; simp at he, rfl,
    ⟨by simp only [BitVec.toNat_ofNat]; omega, rfl, h1, ?_, h1, h1, by simp, ?_⟩⟩
  · have := Nat.div_mul_le_self size.toNat elemSize.toNat
    simp only
    omega
  · intro i hi; simp at hi

/-- C06: for every storage, element size and sequence of single element reads and writes, the cyclic
buffer answers exactly like a FIFO queue with room for (number of slots - 1) elements, and no access outside
of the storage happens (no undefined behaviour). -/
theorem C06_cyclic_buffer_is_fifo {α : Type} (storage room : List α) (size elemSize : U8)
    (hlen : size.toNat ≤ storage.length) (he : 1 ≤ elemSize.toNat)
    (hn : elemSize.toNat ≤ size.toNat) (hroom : room.length = elemSize.toNat)
    (ops : List (QOp (List α))) (hops : ∀ op ∈ ops, sized elemSize.toNat op) :
    ∃ cb cb', cyclicBufferInit storage size elemSize = some cb ∧
      cbRun room cb ops
        = some (cb', (qRun (size.toNat / elemSize.toNat - 1) [] ops).2) := by
  obtain ⟨cb, hi, -, hrep⟩ := init_rep storage size elemSize hlen he hn
  obtain ⟨cb', h, -⟩ := cbRun_refines room hroom ops cb [] hrep hops
  exact ⟨cb, cb', hi, h⟩

/-- The hypotheses of C06 are met: three slots of two bytes, five operations that wrap around. -/
example : ∃ cb cb', cyclicBufferInit [0, 0, 0, 0, 0, 0] 6 2 = some cb ∧
    cbRun [0, 0] cb [.put [1, 2], .put [3, 4], .put [5, 6], .get, .put [7, 8], .get, .get, .get]
      = some (cb', [.accepted true, .accepted true, .accepted false, .taken (some [1, 2]),
          .accepted true, .taken (some [3, 4]), .taken (some [7, 8]), .taken none]) :=
  C06_cyclic_buffer_is_fifo [0, 0, 0, 0, 0, 0] [0, 0] 6 2 (by decide) (by decide) (by decide) rfl _
    (by simp [sized])

/-- C06, boundary: a storage smaller than one element makes the first write undefined (modulo zero). -/
theorem C06_no_slot_is_undefined {α : Type} (storage elem : List α) (size elemSize : U8)
    (he : 1 ≤ elemSize.toNat) (hn : size.toNat < elemSize.toNat) :
    (do let cb ← cyclicBufferInit storage size elemSize
        cyclicBufferWrite cb elem 1) = none := by
  rw [cyclicBufferInit, if_neg (by intro h; rw [h] at he; simp at he)]
  simp [cyclicBufferWrite, nextIndex, Nat.div_eq_of_lt hn]

/-- C06, boundary: the storage size is an `uint8_t`, so of a storage of 256 bytes or more only
`size mod 256` bytes are used: for a storage of exactly 256 bytes there is no slot at all. -/
theorem C06_size_is_truncated {α : Type} (storage : List α) (elemSize : U8) (he : 1 ≤ elemSize.toNat)
    (hlen : storage.length = 256) :
    ∃ cb, cyclicBufferInit storage (BitVec.ofNat 8 storage.length) elemSize = some cb ∧ cb.num = 0 := by
  rw [hlen, cyclicBufferInit, if_neg (by intro h; rw [h] at he; simp at he)]
  exact ⟨_, rfl, by simp⟩

/-! ### C07 multi element transfers -/

theorem flatten_length {α} (es : List (List α)) (k : Nat) (h : ∀ e ∈ es, e.length = k) :
    es.flatten.length = es.length * k := by
  induction es with
  | nil => simp
  | cons e es ih =>
    have h1 := h e (by simp)
    have h2 := ih (fun x hx => h x (by simp [hx]))
    simp only [List.flatten_cons, List.length_append, List.length_cons, h1, h2]
    rw [Nat.add_mul]; omega

theorem flatten_getElem? {α} (es : List (List α)) (k : Nat) (h : ∀ e ∈ es, e.length = k) :
    ∀ i (hi : i < es.length), ∀ t, t < k → es.flatten[i * k + t]? = es[i][t]? := by
  induction es with
  | nil => intro i hi; simp at hi
  | cons e es ih =>
    intro i hi t ht
    have h1 := h e (by simp)
    cases i with
    | zero => simp [List.getElem?_append_left, h1, ht]
    | succ i =>
      have h2 := ih (fun x hx => h x (by simp [hx])) i (by simpa using hi) t ht
      have : (i + 1) * k + t = e.length + (i * k + t) := by rw [Nat.add_mul]; omega
      rw [List.flatten_cons, this, List.getElem?_append_right (by omega)]
      simpa using h2


/-- C07 is violated: a write of two elements that has to wrap around writes the second element behind
the end of the storage (undefined behaviour), although the queue has room for both and two
single writes succeed. -/
theorem C07_multi_write_violated :
    ∃ cb : CyclicBuffer U8,
      (do let cb ← cyclicBufferInit [0, 0, 0, 0] 4 1
          let (_, cb) ← cyclicBufferWrite cb [1, 2, 3] 3
          let (_, cb, _) ← cyclicBufferRead cb [0, 0, 0] 3
          some cb) = some cb ∧
      cyclicBufferWrite cb [7, 8] 2 = none ∧
      (∃ cb', (do let (n, cb) ← cyclicBufferWrite cb [7] 1
                  let (m, cb) ← cyclicBufferWrite cb [8] 1
                  some (n + m, cb)) = some ((2 : U8), cb')) := by
  refine ⟨_, rfl, rfl, _, rfl⟩

/-- C07 is violated for reads as well: reading two elements across the end of the storage reads
behind it. -/
theorem C07_multi_read_violated :
    ∃ cb : CyclicBuffer U8,
      (do let cb ← cyclicBufferInit [0, 0, 0] 3 1
          let (_, cb) ← cyclicBufferWrite cb [1] 1
          let (_, cb) ← cyclicBufferWrite cb [2] 1
          let (_, cb, _) ← cyclicBufferRead cb [0] 1
          let (_, cb, _) ← cyclicBufferRead cb [0] 1
          let (_, cb) ← cyclicBufferWrite cb [3] 1
          let (_, cb) ← cyclicBufferWrite cb [4] 1
          some cb) = some cb ∧
      cyclicBufferRead cb [0, 0] 2 = none := by
  refine ⟨_, rfl, rfl⟩

/-- Helper for `C07_multi_write_partial`. -/
theorem multi_write_rep {α : Type} {n k : Nat} (cb : CyclicBuffer α) (q : List (List α))
    (h : Rep n k cb q) (es : List (List α)) (hes : ∀ e ∈ es, e.length = k) (elem : List α)
    (maxNum : U8) (hmax : maxNum.toNat = es.length)
    (hlen : es.length * k ≤ elem.length)
    (hel : ∀ i (hi : i < es.length), ∀ t, t < k → elem[i * k + t]? = es[i][t]?)
    (hnowrap : cb.writeIndex.toNat + min es.length (n - 1 - q.length) ≤ n) :
    ∃ cb', cyclicBufferWrite cb elem maxNum
        = some (BitVec.ofNat 8 (min es.length (n - 1 - q.length)), cb') ∧
      Rep n k cb' (q ++ es.take (n - 1 - q.length)) := by
  obtain ⟨cb', hl, hrep, -⟩ := writeLoop_spec es.length elem cb q es 0 0 h rfl hes (by omega)
    (by intro i hi t ht; simpa using hel i hi t ht) hnowrap
  by_cases h0 : 0 < maxNum
  · refine ⟨cb', ?_, hrep⟩
    rw [cyclicBufferWrite, if_pos h0, nextIndex_eq (by rw [h.hnum]; exact h.hn), h.helem, h.hnum,
      hmax]
    simpa using hl
  · have hz : maxNum.toNat = 0 := by
      rw [BitVec.lt_def] at h0; simp at h0; simp [h0]
    have : es = [] := by apply List.length_eq_zero_iff.mp; omega
    subst this
    exact ⟨cb, by rw [cyclicBufferWrite, if_neg h0]; simp, by simpa using h⟩

/-- Helper for `C07_multi_read_partial`. -/
theorem multi_read_rep {α : Type} {n k : Nat} (cb : CyclicBuffer α) (q : List (List α))
    (h : Rep n k cb q) (elem : List α) (maxNum : U8) (hlen : maxNum.toNat * k ≤ elem.length)
    (hnowrap : cb.readIndex.toNat + min maxNum.toNat q.length ≤ n) :
    ∃ cb' elem', cyclicBufferRead cb elem maxNum
        = some (BitVec.ofNat 8 (min maxNum.toNat q.length), cb', elem') ∧
      Rep n k cb' (q.drop maxNum.toNat) ∧
      (∀ i (hi : i < min maxNum.toNat q.length), ∀ t, t < k →
        elem'[i * k + t]? = (q[i]'(by omega))[t]?) ∧
      (∀ x, (min maxNum.toNat q.length) * k ≤ x → elem'[x]? = elem[x]?) := by
  obtain ⟨cb', el, hl, hrep, -, -, hcop, hfr⟩ := readLoop_spec maxNum.toNat cb q elem 0 0 h
    (by omega) hnowrap
  refine ⟨cb', el, ?_, hrep, ?_, ?_⟩
  · rw [cyclicBufferRead, h.helem, hl]; simp
  · intro i hi t ht; simpa using hcop i hi t ht
  · intro x hx; exact hfr x (Or.inr (by simpa using hx))

/-- C07 (partial): after any history of single element operations (queue content `q`), a write of
several elements `es` whose slots do not cross the physical end of the storage appends as many of them as there is
room for, in order: the returned count says so and every later history `ops'` answers accordingly.
Missing: the wrap-around case, for which the claim is false (`C07_multi_write_violated`). -/
theorem C07_multi_write_partial {α : Type} (storage room : List α) (size elemSize : U8)
    (hlen : size.toNat ≤ storage.length) (he : 1 ≤ elemSize.toNat)
    (hn : elemSize.toNat ≤ size.toNat) (hroom : room.length = elemSize.toNat)
    (ops : List (QOp (List α))) (hops : ∀ op ∈ ops, sized elemSize.toNat op)
    (cb0 cb : CyclicBuffer α) (os : List (QOut (List α)))
    (hinit : cyclicBufferInit storage size elemSize = some cb0)
    (hrun : cbRun room cb0 ops = some (cb, os))
    (es : List (List α)) (hes : ∀ e ∈ es, e.length = elemSize.toNat)
    (maxNum : U8) (hmax : maxNum.toNat = es.length) :
    let n := size.toNat / elemSize.toNat
    let q := (qRun (n - 1) [] ops).1
    cb.writeIndex.toNat + min es.length (n - 1 - q.length) ≤ n →
    ∃ cb', cyclicBufferWrite cb es.flatten maxNum
        = some (BitVec.ofNat 8 (min es.length (n - 1 - q.length)), cb') ∧
      ∀ ops', (∀ op ∈ ops', sized elemSize.toNat op) →
        ∃ cb'', cbRun room cb' ops'
          = some (cb'', (qRun (n - 1) (q ++ es.take (n - 1 - q.length)) ops').2) := by
  intro n q hnowrap
  obtain ⟨cb0', hi, -, hrep0⟩ := init_rep storage size elemSize hlen he hn
  rw [hinit, Option.some.injEq] at hi; subst hi
  obtain ⟨cb1, h1, hrep⟩ := cbRun_refines room hroom ops cb0 [] hrep0 hops
  rw [hrun, Option.some.injEq, Prod.mk.injEq] at h1
  obtain ⟨hcb, -⟩ := h1; subst hcb
  obtain ⟨cb', hw, hrep'⟩ := multi_write_rep cb _ hrep es hes es.flatten maxNum hmax
    (by rw [flatten_length es _ hes]; exact Nat.le_refl _) (flatten_getElem? es _ hes) hnowrap
  refine ⟨cb', hw, ?_⟩
  intro ops' hops'
  obtain ⟨cb'', h2, -⟩ := cbRun_refines room hroom ops' cb' _ hrep' hops'
  exact ⟨cb'', h2⟩

/-- C07 (partial): after any history of single element operations (queue content `q`), a read of
several elements whose slots do not cross the physical end of the storage takes the oldest elements out, in
order: they are placed one after the other into the caller's memory, the rest of that memory is
untouched and every later history answers accordingly.  Missing: the wrap-around case, for which
the claim is false (`C07_multi_read_violated`). -/
theorem C07_multi_read_partial {α : Type} (storage room : List α) (size elemSize : U8)
    (hlen : size.toNat ≤ storage.length) (he : 1 ≤ elemSize.toNat)
    (hn : elemSize.toNat ≤ size.toNat) (hroom : room.length = elemSize.toNat)
    (ops : List (QOp (List α))) (hops : ∀ op ∈ ops, sized elemSize.toNat op)
    (cb0 cb : CyclicBuffer α) (os : List (QOut (List α)))
    (hinit : cyclicBufferInit storage size elemSize = some cb0)
    (hrun : cbRun room cb0 ops = some (cb, os))
    (elem : List α) (maxNum : U8) (hmem : maxNum.toNat * elemSize.toNat ≤ elem.length) :
    let n := size.toNat / elemSize.toNat
    let q := (qRun (n - 1) [] ops).1
    cb.readIndex.toNat + min maxNum.toNat q.length ≤ n →
    ∃ cb' elem', cyclicBufferRead cb elem maxNum
        = some (BitVec.ofNat 8 (min maxNum.toNat q.length), cb', elem') ∧
      (∀ i (hi : i < min maxNum.toNat q.length), ∀ t, t < elemSize.toNat →
        elem'[i * elemSize.toNat + t]? = (q[i]'(by omega))[t]?) ∧
      (∀ x, (min maxNum.toNat q.length) * elemSize.toNat ≤ x → elem'[x]? = elem[x]?) ∧
      ∀ ops', (∀ op ∈ ops', sized elemSize.toNat op) →
        ∃ cb'', cbRun room cb' ops' = some (cb'', (qRun (n - 1) (q.drop maxNum.toNat) ops').2) := by
  intro n q hnowrap
  obtain ⟨cb0', hi, -, hrep0⟩ := init_rep storage size elemSize hlen he hn
  rw [hinit, Option.some.injEq] at hi; subst hi
  obtain ⟨cb1, h1, hrep⟩ := cbRun_refines room hroom ops cb0 [] hrep0 hops
  rw [hrun, Option.some.injEq, Prod.mk.injEq] at h1
  obtain ⟨hcb, -⟩ := h1; subst hcb
  obtain ⟨cb', elem', hr, hrep', hc, hf⟩ := multi_read_rep cb _ hrep elem maxNum hmem hnowrap
  refine ⟨cb', elem', hr, hc, hf, ?_⟩
  intro ops' hops'
  obtain ⟨cb'', h2, -⟩ := cbRun_refines room hroom ops' cb' _ hrep' hops'
  exact ⟨cb'', h2⟩

/-- A concrete multi element transfer meeting the hypotheses: after one put, two elements are written
at once and then all three are read at once. -/
example : (do
    let cb ← cyclicBufferInit (α := U8) [0, 0, 0, 0, 0, 0, 0, 0] 8 2
    let (cb, _) ← cbRun [0, 0] cb [.put [1, 2]]
    let (n, cb) ← cyclicBufferWrite cb [3, 4, 5, 6] 2
    let (m, _, e) ← cyclicBufferRead cb [0, 0, 0, 0, 0, 0, 9] 3
    some (n, m, e)) = some (2, 3, [1, 2, 3, 4, 5, 6, 9]) := by rfl

/-! ### C08 zone index -/

/-- C08: the zone index is 0, 1 or 255 (none), exactly for the documented events. -/
theorem C08_zone_index (cls : U16) (typ : U8) :
    getZoneIndex cls typ =
      open Classical in
      if ZoneInByte0 cls.toNat typ.toNat then 0
      else if ZoneInByte1 cls.toNat typ.toNat then 1 else 0xFF := by
  have h0 : (0 < typ) ↔ 0 < typ.toNat := by rw [BitVec.lt_def]; rfl
  unfold getZoneIndex
  simp only [h0]
  simp only [u8_eq_iff, BitVec.le_def, ne_eq]
  generalize cls.toNat = c
  generalize typ.toNat = t
  by_cases ht : 0 < t
  · rw [if_pos ht]
    split
    case h_2 =>
      simp only [ZoneInByte0, ZoneInByte1, zoneClasses, List.mem_cons, List.not_mem_nil]
      grind
    all_goals
      simp [ZoneInByte0, ZoneInByte1, zoneClasses]
      grind
  · rw [if_neg ht, if_neg, if_neg]
    · unfold ZoneInByte1; omega
    · unfold ZoneInByte0; omega

example : ZoneInByte0 20 38 ∧ ZoneInByte1 30 5 ∧ ¬ ZoneInByte1 10 6 := by
  simp [ZoneInByte0, ZoneInByte1, zoneClasses]

/-- C08: whenever a zone index is reported, zone and sub-zone byte lie inside of the payload; type 0
events and classes without zone information have none. -/
theorem C08_zone_inside_payload (cls : U16) (typ : U8) (h : getZoneIndex cls typ ≠ 0xFF) :
    (getZoneIndex cls typ).toNat + 1 < L1_DATA_SIZE ∧ 0 < typ.toNat := by
  rw [C08_zone_index] at *
  split at h
  · rename_i hz
    rw [if_pos hz]
    exact ⟨by decide, by unfold ZoneInByte0 at hz; omega⟩
  · rename_i hz
    rw [if_neg hz]
    split at h
    · rename_i hz1
      rw [if_pos hz1]
      exact ⟨by decide, hz1.1⟩
    · exact absurd rfl h

example : getZoneIndex 20 39 ≠ 0xFF ∧ getZoneIndex 508 7 ≠ 0xFF := by decide

end Vscp.Util
