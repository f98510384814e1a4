/-
Helper lemmas for the cyclic buffer.
-/
import Verif.Model.Util
import Verif.Spec.Util

namespace Vscp.Util
open Vscp.Spec

/-- Pointwise description of the copy loop. -/
theorem copyCells_spec {α} (src : List α) (so : Nat) (dst : List α) (d n : Nat)
    (hs : so + n ≤ src.length) (hd : d + n ≤ dst.length) :
    ∃ m, copyCells src so dst d n = some m ∧ m.length = dst.length ∧
      ∀ i, m[i]? = if d ≤ i ∧ i < d + n then src[so + (i - d)]? else dst[i]? := by
  induction n with
  | zero => exact ⟨dst, rfl, rfl, fun i => by rw [if_neg]; omega⟩
  | succ n ih =>
    obtain ⟨m, hm, hl, hp⟩ := ih (by omega) (by omega)
    have hx : so + n < src.length := by omega
    have hw : d + n < m.length := by omega
    refine ⟨m.set (d + n) src[so + n], ?_, by simp [hl], fun i => ?_⟩
    · simp [copyCells, hm, List.getElem?_eq_getElem hx, wr, hw]
    · rw [List.getElem?_set]
      by_cases h : d + n = i
      · subst h
        simp [hw, List.getElem?_eq_getElem hx]
      · simp only [h, if_false, hp]
        by_cases h2 : d ≤ i ∧ i < d + n
        · rw [if_pos h2, if_pos (by omega)]
        · rw [if_neg h2, if_neg (by omega)]

/-- Element `j` (of size `k`) of a storage is `e`. -/
def ChunkIs {α} (s : List α) (k j : Nat) (e : List α) : Prop :=
  e.length = k ∧ ∀ t, t < k → s[j * k + t]? = e[t]?

theorem ChunkIs.congr {α} {s s' : List α} {k j : Nat} {e : List α} (h : ChunkIs s k j e)
    (hs : ∀ t, t < k → s'[j * k + t]? = s[j * k + t]?) : ChunkIs s' k j e :=
  ⟨h.1, fun t ht => by rw [hs t ht, h.2 t ht]⟩

theorem chunk_disjoint {k j j' t : Nat} (h : j ≠ j') (ht : t < k) :
    ¬ (j' * k ≤ j * k + t ∧ j * k + t < j' * k + k) := by
  rcases Nat.lt_or_gt_of_ne h with h | h
  · have := Nat.mul_le_mul_right k (show j + 1 ≤ j' by omega)
    rw [Nat.succ_mul] at this; omega
  · have := Nat.mul_le_mul_right k (show j' + 1 ≤ j by omega)
    rw [Nat.succ_mul] at this; omega

theorem mod_once {x n : Nat} (h : x < 2 * n) : x % n = if x < n then x else x - n := by
  split
  · exact Nat.mod_eq_of_lt ‹_›
  · rw [Nat.mod_eq_sub_mod (by omega), Nat.mod_eq_of_lt (by omega)]

/-- The cyclic buffer `cb` (with `n` slots of `k` cells) holds exactly the queue `q`. -/
structure Rep {α} (n k : Nat) (cb : CyclicBuffer α) (q : List (List α)) : Prop where
  hnum : cb.num.toNat = n
  helem : cb.elemSize.toNat = k
  hn : 1 ≤ n
  hlen : n * k ≤ cb.storage.length
  hr : cb.readIndex.toNat < n
  hq : q.length + 1 ≤ n
  hw : cb.writeIndex.toNat = (cb.readIndex.toNat + q.length) % n
  hc : ∀ i (h : i < q.length), ChunkIs cb.storage k ((cb.readIndex.toNat + i) % n) q[i]

theorem u8_eq_iff (a b : U8) : a = b ↔ a.toNat = b.toNat := BitVec.toNat_inj.symm

theorem Rep.n_lt {α n k} {cb : CyclicBuffer α} {q} (h : Rep n k cb q) : n < 256 := by
  rw [← h.hnum]; exact cb.num.isLt

theorem nextIndex_eq {i num : U8} (h : 1 ≤ num.toNat) :
    nextIndex i num = some (BitVec.ofNat 8 ((i.toNat + 1) % num.toNat)) := by
  unfold nextIndex
  rw [if_neg]
  intro h'; rw [h'] at h; simp at h

theorem ofNat_mod_toNat (x n : Nat) (hn : 1 ≤ n) (h : n < 256) :
    (BitVec.ofNat 8 (x % n)).toNat = x % n := by
  have := Nat.mod_lt x (show n > 0 by omega)
  simp; omega

/-- Index part of one write: slot `w` gets `e`, the write index advances. -/
theorem Rep.put {α n k} {cb : CyclicBuffer α} {q : List (List α)} (h : Rep n k cb q)
    (hfull : q.length + 1 < n) (st : List α) (e : List α)
    (hst : st.length = cb.storage.length)
    (hnew : ChunkIs st k cb.writeIndex.toNat e)
    (hold : ∀ j, j ≠ cb.writeIndex.toNat → ∀ t, t < k → st[j * k + t]? = cb.storage[j * k + t]?) :
    Rep n k { cb with storage := st, writeIndex := BitVec.ofNat 8 ((cb.writeIndex.toNat + 1) % n) }
      (q ++ [e]) := by
  have hn' := h.n_lt
  refine ⟨h.hnum, h.helem, h.hn, by rw [hst]; exact h.hlen, h.hr, by simp; omega, ?_, ?_⟩
  · simp only [ofNat_mod_toNat _ _ h.hn hn', List.length_append, List.length_singleton]
    rw [h.hw, Nat.mod_add_mod]; congr 1
  · intro i hi
    simp only [List.length_append, List.length_singleton] at hi
    have hr := h.hr
    by_cases hlt : i < q.length
    · rw [List.getElem_append_left hlt]
      refine (h.hc i hlt).congr fun t ht => hold _ ?_ t ht
      rw [h.hw, mod_once (by omega), mod_once (by omega)]
      split <;> split <;> omega
    · have : i = q.length := by omega
      subst this
      rw [List.getElem_append_right (by omega)]
      simp only [Nat.sub_self, List.getElem_cons_zero]
      rw [← h.hw]; exact hnew

/-- Index part of one read. -/
theorem Rep.get {α n k} {cb : CyclicBuffer α} {e : List α} {q : List (List α)}
    (h : Rep n k cb (e :: q)) :
    Rep n k { cb with readIndex := BitVec.ofNat 8 ((cb.readIndex.toNat + 1) % n) } q := by
  have hn' := h.n_lt
  have hr := h.hr
  have hq := h.hq
  have hw := h.hw
  simp only [List.length_cons] at hq hw
  have hx : (cb.readIndex.toNat + 1) % n < n := Nat.mod_lt _ (by omega)
  refine ⟨h.hnum, h.helem, h.hn, h.hlen, ?_, by omega, ?_, ?_⟩
  · simp only [ofNat_mod_toNat _ _ h.hn hn']; exact hx
  · simp only [ofNat_mod_toNat _ _ h.hn hn', hw, Nat.mod_add_mod]; congr 1; omega
  · intro i hi
    have := h.hc (i + 1) (by simp; omega)
    simp only [ofNat_mod_toNat _ _ h.hn hn', Nat.mod_add_mod]
    rw [show cb.readIndex.toNat + 1 + i = cb.readIndex.toNat + (i + 1) by omega]
    simpa using this

theorem Rep.full_iff {α n k} {cb : CyclicBuffer α} {q : List (List α)} (h : Rep n k cb q) :
    cb.readIndex = BitVec.ofNat 8 ((cb.writeIndex.toNat + 1) % n) ↔ q.length + 1 = n := by
  have hr := h.hr
  have hq := h.hq
  rw [u8_eq_iff, ofNat_mod_toNat _ _ h.hn h.n_lt, h.hw, Nat.mod_add_mod, mod_once (by omega)]
  split <;> omega

theorem Rep.empty_iff {α n k} {cb : CyclicBuffer α} {q : List (List α)} (h : Rep n k cb q) :
    cb.readIndex = cb.writeIndex ↔ q = [] := by
  have hr := h.hr
  have hq := h.hq
  rw [u8_eq_iff, h.hw, mod_once (by omega), ← List.length_eq_zero_iff]
  split <;> omega

theorem Rep.w_lt {α n k} {cb : CyclicBuffer α} {q : List (List α)} (h : Rep n k cb q) :
    cb.writeIndex.toNat < n := by
  rw [h.hw]; exact Nat.mod_lt _ h.hn

/-- The write loop, as long as the linear pointer stays inside of the storage. -/
theorem writeLoop_spec {α} {n k : Nat} (m : Nat) (elem : List α) :
    ∀ (cb : CyclicBuffer α) (q : List (List α)) (es : List (List α)) (src : Nat) (written : U8),
      Rep n k cb q → es.length = m → (∀ e ∈ es, e.length = k) →
      src + m * k ≤ elem.length →
      (∀ i (h : i < es.length), ∀ t, t < k → elem[src + i * k + t]? = es[i][t]?) →
      cb.writeIndex.toNat + min m (n - 1 - q.length) ≤ n →
      ∃ cb', writeLoop m cb (BitVec.ofNat 8 ((cb.writeIndex.toNat + 1) % n)) elem src
            (cb.writeIndex.toNat * k) written
          = some (written + BitVec.ofNat 8 (min m (n - 1 - q.length)), cb') ∧
        Rep n k cb' (q ++ es.take (n - 1 - q.length)) ∧
        cb'.storage.length = cb.storage.length := by
  induction m with
  | zero =>
    intro cb q es src written h hm _ _ _ _
    have : es = [] := List.length_eq_zero_iff.mp hm
    subst this
    exact ⟨cb, by simp [writeLoop], by simpa using h, rfl⟩
  | succ m ih =>
    intro cb q es src written h hm hes hlen hel hwrap
    have hq := h.hq
    have hn := h.n_lt
    by_cases hfull : q.length + 1 = n
    · refine ⟨cb, ?_, ?_, rfl⟩
      · have h0 : n - 1 - q.length = 0 := by omega
        simp [writeLoop, h.full_iff.mpr hfull, h0]
      · have h0 : n - 1 - q.length = 0 := by omega
        simpa [h0] using h
    · have hne : cb.readIndex ≠ BitVec.ofNat 8 ((cb.writeIndex.toNat + 1) % n) :=
        fun hh => hfull (h.full_iff.mp hh)
      match es, hm with
      | e :: es, hm =>
        have hw := h.w_lt
        have hslot : cb.writeIndex.toNat * k + k ≤ cb.storage.length := by
          have h1 := Nat.mul_le_mul_right k (show cb.writeIndex.toNat + 1 ≤ n by omega)
          rw [Nat.succ_mul] at h1
          have := h.hlen
          omega
        have hmk : (m + 1) * k = m * k + k := Nat.succ_mul m k
        obtain ⟨st, hst, hstl, hstp⟩ := copyCells_spec elem src cb.storage
          (cb.writeIndex.toNat * k) k (by omega) hslot
        have hek : e.length = k := hes e (by simp)
        have hput := h.put (by omega) st e hstl
          ⟨hek, fun t ht => by
            rw [hstp, if_pos (by omega)]
            have := hel 0 (by simp) t ht
            simp only [Nat.zero_mul, List.getElem_cons_zero, Nat.add_zero] at this
            rw [← this]; congr 1; omega⟩
          (fun j hj t ht => by rw [hstp, if_neg (chunk_disjoint hj ht)])
        have hk1 : min (m + 1) (n - 1 - q.length) = min m (n - 1 - (q ++ [e]).length) + 1 := by
          simp; omega
        have hw' : (BitVec.ofNat 8 ((cb.writeIndex.toNat + 1) % n)).toNat
            = (cb.writeIndex.toNat + 1) % n := ofNat_mod_toNat _ _ h.hn hn
        -- does the write index wrap?  Then this was the last element.
        by_cases hwr : cb.writeIndex.toNat + 1 < n
        · have hmod : (cb.writeIndex.toNat + 1) % n = cb.writeIndex.toNat + 1 :=
            Nat.mod_eq_of_lt hwr
          have hw1 : (BitVec.ofNat 8 (cb.writeIndex.toNat + 1)).toNat = cb.writeIndex.toNat + 1 := by
            rw [← hmod]; exact hw'.trans rfl
          rw [hmod] at hput
          obtain ⟨cb', hl, hrep, hlen'⟩ := ih _ (q ++ [e]) es (src + k) (written + 1) hput
            (by simpa using hm) (fun x hx => hes x (by simp [hx])) (by omega)
            (fun i hi t ht => by
              have := hel (i + 1) (by simp; omega) t ht
              simp only [List.getElem_cons_succ, Nat.succ_mul] at this
              rw [← this]; congr 1; omega)
            (by simp only [hw1]; omega)
          refine ⟨cb', ?_, ?_, ?_⟩
          · rw [writeLoop, if_pos hne, h.helem, hst]
            simp only [Option.bind_eq_bind, Option.bind_some]
            rw [nextIndex_eq (by rw [h.hnum]; exact h.hn)]
            simp only [Option.bind_some, h.hnum]
            simp only [hw1, Nat.succ_mul] at hl
            rw [hmod, hw1, hl, hk1]
            congr 2
            apply BitVec.eq_of_toNat_eq
            simp; omega
          · have : n - 1 - q.length = (n - 1 - (q ++ [e]).length) + 1 := by simp; omega
            rw [this, List.take_succ_cons]
            simpa using hrep
          · rw [hlen']; exact hstl
        · -- last slot written
          have hlast : min (m + 1) (n - 1 - q.length) = 1 := by omega
          refine ⟨{ cb with storage := st, writeIndex := BitVec.ofNat 8 ((cb.writeIndex.toNat + 1) % n) },
            ?_, ?_, hstl⟩
          rotate_left
          · have : List.take (n - 1 - q.length) (e :: es) = [e] := by
              by_cases hm0 : m = 0
              · have : es = [] := by
                  apply List.length_eq_zero_iff.mp; simp at hm; omega
                subst this
                rw [List.take_of_length_le]; simp; omega
              · have : n - 1 - q.length = 1 := by omega
                rw [this]; rfl
            rw [this]
            exact hput
          · rw [writeLoop, if_pos hne, h.helem, hst]
            simp only [Option.bind_eq_bind, Option.bind_some]
            rw [nextIndex_eq (by rw [h.hnum]; exact h.hn)]
            simp only [Option.bind_some, h.hnum]
            rw [hlast]
            match m with
            | 0 => rfl
            | m + 1 =>
              have hf : (q ++ [e]).length + 1 = n := by simp; omega
              have := hput.full_iff.mpr hf
              simp only [hw'] at this
              rw [writeLoop, if_neg]
              · rfl
              · rw [hw']; simpa using this

/-- The read loop, as long as the linear pointer stays inside of the storage. -/
theorem readLoop_spec {α} {n k : Nat} (m : Nat) :
    ∀ (cb : CyclicBuffer α) (q : List (List α)) (elem : List α) (dst : Nat) (read : U8),
      Rep n k cb q → dst + m * k ≤ elem.length →
      cb.readIndex.toNat + min m q.length ≤ n →
      ∃ cb' elem', readLoop m cb elem (cb.readIndex.toNat * k) dst read
          = some (read + BitVec.ofNat 8 (min m q.length), cb', elem') ∧
        Rep n k cb' (q.drop m) ∧ cb'.storage = cb.storage ∧ elem'.length = elem.length ∧
        (∀ i (h : i < min m q.length), ∀ t, t < k →
          elem'[dst + i * k + t]? = (q[i]'(by omega))[t]?) ∧
        (∀ x, x < dst ∨ dst + (min m q.length) * k ≤ x → elem'[x]? = elem[x]?) := by
  induction m with
  | zero =>
    intro cb q elem dst read h _ _
    exact ⟨cb, elem, by simp [readLoop], by simpa using h, rfl, rfl, fun i hi => by omega,
      fun _ _ => rfl⟩
  | succ m ih =>
    intro cb q elem dst read h hlen hwrap
    match q, h, hwrap with
    | [], h, _ =>
      refine ⟨cb, elem, ?_, by simpa using h, rfl, rfl, fun i hi => absurd hi (by simp),
        fun _ _ => rfl⟩
      simp [readLoop, h.empty_iff.mpr rfl]
    | e :: q, h, hwrap =>
      have hn := h.n_lt
      have hr := h.hr
      have hq := h.hq
      have hne : cb.readIndex ≠ cb.writeIndex := fun hh => by simpa using h.empty_iff.mp hh
      have hslot : cb.readIndex.toNat * k + k ≤ cb.storage.length := by
        have h1 := Nat.mul_le_mul_right k (show cb.readIndex.toNat + 1 ≤ n by omega)
        rw [Nat.succ_mul] at h1
        have := h.hlen
        omega
      have hmk : (m + 1) * k = m * k + k := Nat.succ_mul m k
      obtain ⟨el, hel, hell, help⟩ := copyCells_spec cb.storage (cb.readIndex.toNat * k) elem dst k
        hslot (by omega)
      have hget := h.get
      have hr' : (BitVec.ofNat 8 ((cb.readIndex.toNat + 1) % n)).toNat
          = (cb.readIndex.toNat + 1) % n := ofNat_mod_toNat _ _ h.hn hn
      have hfirst : ∀ t, t < k → el[dst + t]? = e[t]? := fun t ht => by
        have := (h.hc 0 (by simp)).2 t ht
        simp only [List.getElem_cons_zero, Nat.add_zero, Nat.mod_eq_of_lt hr] at this
        rw [help, if_pos (by omega), ← this]; congr 1; omega
      by_cases hwr : cb.readIndex.toNat + 1 < n
      · have hmod : (cb.readIndex.toNat + 1) % n = cb.readIndex.toNat + 1 := Nat.mod_eq_of_lt hwr
        have hr1 : (BitVec.ofNat 8 (cb.readIndex.toNat + 1)).toNat = cb.readIndex.toNat + 1 := by
          rw [← hmod]; exact hr'.trans rfl
        rw [hmod] at hget
        obtain ⟨cb', el', hl, hrep, hst, hlen', hcop, hframe⟩ := ih _ q el (dst + k) (read + 1) hget
          (by omega) (by simp only [hr1]; simp only [List.length_cons] at hwrap; omega)
        refine ⟨cb', el', ?_, by simpa using hrep, hst, by omega, ?_, ?_⟩
        · rw [readLoop, if_pos hne, nextIndex_eq (by rw [h.hnum]; exact h.hn)]
          simp only [Option.bind_eq_bind, Option.bind_some, h.helem, hel, h.hnum]
          simp only [hr1, Nat.succ_mul] at hl
          rw [hmod, hl]
          congr 2
          apply BitVec.eq_of_toNat_eq
          simp; omega
        · intro i hi t ht
          match i with
          | 0 =>
            rw [hframe _ (Or.inl (by omega))]
            simpa using hfirst t ht
          | i + 1 =>
            have := hcop i (by simp at hi; omega) t ht
            rw [Nat.succ_mul]
            simp only [List.getElem_cons_succ]
            rw [← this]; congr 1; omega
        · intro x hx
          have hmin : min (m + 1) (e :: q).length = min m q.length + 1 := by simp
          rw [hmin, Nat.succ_mul] at hx
          rw [hframe x (by omega), help, if_neg (by omega)]
      · have hlast : min (m + 1) (e :: q).length = 1 := by simp only [List.length_cons] at *; omega
        refine ⟨{ cb with readIndex := BitVec.ofNat 8 ((cb.readIndex.toNat + 1) % n) }, el,
          ?_, ?_, rfl, hell, ?_, ?_⟩
        · rw [readLoop, if_pos hne, nextIndex_eq (by rw [h.hnum]; exact h.hn)]
          simp only [Option.bind_eq_bind, Option.bind_some, h.helem, hel, h.hnum]
          rw [hlast]
          match m with
          | 0 => rfl
          | m + 1 =>
            have : q = [] := by
              apply List.length_eq_zero_iff.mp; simp only [List.length_cons] at hlast; omega
            subst this
            have := hget.empty_iff.mpr rfl
            simp only at this
            rw [readLoop, if_neg]
            · rfl
            · simpa using this
        · by_cases hm0 : m = 0
          · subst hm0; simpa using hget
          · have : q = [] := by
              apply List.length_eq_zero_iff.mp; simp only [List.length_cons] at hlast; omega
            subst this
            simpa using hget
        · intro i hi t ht
          have : i = 0 := by omega
          subst this
          simpa using hfirst t ht
        · intro x hx
          rw [hlast] at hx
          rw [help, if_neg (by omega)]

/-- Where a zone index is inside of the event data, the sub-zone behind it is inside too. -/
theorem zoneIndex_next (cls : U16) (typ : U8) (h : (getZoneIndex cls typ).toNat < L1_DATA_SIZE) :
    (getZoneIndex cls typ).toNat + 1 < L1_DATA_SIZE := by
  revert h
  unfold getZoneIndex
  repeat' split
  all_goals decide

end Vscp.Util
