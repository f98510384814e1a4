/-
The cyclic buffer of the serial driver as a list.
-/
import Verif.Spec.Serial

namespace Vscp.Driver.Serial

/-- The buffer was initialised, its indices are inside of the storage. -/
structure Ring.Ok (r : Ring) : Prop where
  two : 2 ≤ r.size.toNat
  len : r.storage.length = r.size.toNat
  rd : r.read.toNat < r.size.toNat
  wr : r.write.toNat < r.size.toNat

namespace Ring

/-- Number of stored bytes. -/
def count (r : Ring) : Nat :=
  if r.read.toNat ≤ r.write.toNat then r.write.toNat - r.read.toNat else r.write.toNat + r.size.toNat - r.read.toNat

/-- Index of byte `i`, counted from the oldest one. -/
def idx (r : Ring) (i : Nat) : Nat := if r.size.toNat ≤ r.read.toNat + i then r.read.toNat + i - r.size.toNat else r.read.toNat + i

/-- The stored bytes, the oldest one first. -/
def content (r : Ring) : List U8 := (List.range r.count).map fun i => r.storage.getD (r.idx i) 0

theorem content_length (r : Ring) : r.content.length = r.count := by simp [content]

end Ring

theorem next_toNat {size i : U8} (h : i.toNat < size.toNat) :
    (next size i).toNat = if size.toNat ≤ i.toNat + 1 then 0 else i.toNat + 1 := by
  have hs := size.isLt
  have h1 : (i + 1).toNat = i.toNat + 1 := by rw [BitVec.toNat_add]; simp; omega
  rw [next, h1]
  split
  · rfl
  · exact h1

theorem next_lt {size i : U8} (h : i.toNat < size.toNat) : (next size i).toNat < size.toNat := by
  rw [next_toNat h]; split <;> omega

namespace Ring

theorem Ok.init {storage : List U8} {size : U8} (h2 : 2 ≤ size.toNat) (hl : storage.length = size.toNat) :
    Ok ⟨storage, size, 0, 0⟩ := ⟨h2, hl, by simp; omega, by simp; omega⟩

theorem content_init {storage : List U8} {size : U8} : content ⟨storage, size, 0, 0⟩ = [] := by simp [content, count]

theorem content_nil {r : Ring} (h : r.Ok) : r.content = [] ↔ r.read = r.write := by
  have := h.rd; have := h.wr
  constructor
  · intro hc
    have : r.count = 0 := by rw [← content_length, hc]; rfl
    apply BitVec.eq_of_toNat_eq
    simp only [count] at this
    split at this <;> omega
  · intro hc
    have : r.count = 0 := by simp [count, hc]
    simp [content, this]

theorem content_lt {r : Ring} (h : r.Ok) : r.content.length < r.size.toNat := by
  have := h.rd; have := h.wr
  rw [content_length, count]; split <;> omega

/-- The oldest byte, and the buffer behind it. -/
theorem content_cons {r : Ring} (h : r.Ok) (hne : r.read ≠ r.write) :
    ∃ b, r.storage[r.read.toNat]? = some b ∧ r.content = b :: content { r with read := next r.size r.read } := by
  have h1 := h.rd; have h2 := h.wr; have h3 := h.len
  have hne' : r.read.toNat ≠ r.write.toNat := fun e => hne (BitVec.eq_of_toNat_eq e)
  refine ⟨r.storage[r.read.toNat], by rw [List.getElem?_eq_getElem], ?_⟩
  have hc : r.count = count { r with read := next r.size r.read } + 1 := by
    simp only [count, next_toNat h1]
    (repeat' split) <;> omega
  rw [content, hc, List.range_succ_eq_map, List.map_cons, List.map_map]
  congr 1
  · have : r.idx 0 = r.read.toNat := by simp [idx]; omega
    rw [this, List.getD_eq_getElem?_getD, List.getElem?_eq_getElem (by omega)]; rfl
  · apply List.map_congr_left
    intro i hi
    rw [List.mem_range] at hi
    simp only [Function.comp]
    have : r.idx i.succ = idx { r with read := next r.size r.read } i := by
      simp only [idx, next_toNat h1]
      simp only [count, next_toNat h1] at hi
      revert hi
      (repeat' split) <;> omega
    rw [this]

/-- One more byte. -/
theorem content_snoc {r : Ring} (h : r.Ok) (hne : r.read ≠ next r.size r.write) (b : U8) :
    content { r with storage := r.storage.set r.write.toNat b, write := next r.size r.write } = r.content ++ [b] := by
  have h1 := h.rd; have h2 := h.wr; have h3 := h.len
  have hne' : r.read.toNat ≠ (next r.size r.write).toNat := fun e => hne (BitVec.eq_of_toNat_eq e)
  rw [next_toNat h2] at hne'
  have hc : count { r with storage := r.storage.set r.write.toNat b, write := next r.size r.write } = r.count + 1 := by
    simp only [count, next_toNat h2]
    revert hne'
    (repeat' split) <;> omega
  rw [content, hc, List.range_succ, List.map_append, content]
  congr 1
  · apply List.map_congr_left
    intro i hi
    rw [List.mem_range] at hi
    have hne : r.idx i ≠ r.write.toNat := by
      simp only [idx]; simp only [count] at hi
      revert hi
      (repeat' split) <;> omega
    show (r.storage.set r.write.toNat b).getD (r.idx i) 0 = _
    simp only [List.getD_eq_getElem?_getD]
    rw [List.getElem?_set_ne (Ne.symm hne)]
  · have : idx { r with storage := r.storage.set r.write.toNat b, write := next r.size r.write } r.count = r.write.toNat := by
      simp only [idx, count]
      (repeat' split) <;> omega
    simp only [List.map_cons, List.map_nil, this, List.getD_eq_getElem?_getD]
    rw [List.getElem?_set_self (by omega)]; rfl

theorem content_full {r : Ring} (h : r.Ok) (he : r.read = next r.size r.write) : r.content.length = r.size.toNat - 1 := by
  have h1 := h.rd; have h2 := h.wr
  have he' : r.read.toNat = if r.size.toNat ≤ r.write.toNat + 1 then 0 else r.write.toNat + 1 := by rw [← next_toNat h2, ← he]
  rw [content_length, count]
  revert he'
  (repeat' split) <;> omega

theorem content_room {r : Ring} (h : r.Ok) (hne : r.read ≠ next r.size r.write) : r.content.length < r.size.toNat - 1 := by
  have := content_snoc h hne 0
  have h2 : Ok { r with storage := r.storage.set r.write.toNat 0, write := next r.size r.write } :=
    ⟨h.two, by simpa using h.len, h.rd, next_lt h.wr⟩
  have h3 := content_lt h2
  rw [this] at h3
  simp only [List.length_append, List.length_cons, List.length_nil] at h3
  omega

/-- The interrupted and the uninterrupted functions on the list. -/
theorem put_spec {r : Ring} (h : r.Ok) (b : U8) :
    (∃ r', r.put b = some (true, r') ∧ r'.Ok ∧ r'.size = r.size ∧ r'.read = r.read ∧ r.content.length < r.size.toNat - 1 ∧
      r'.content = r.content ++ [b]) ∨
    (r.put b = some (false, r) ∧ r.content.length = r.size.toNat - 1) := by
  by_cases hne : r.read = next r.size r.write
  · exact Or.inr ⟨by rw [put, if_neg (by simp [hne])], content_full h hne⟩
  · refine Or.inl ⟨{ r with storage := r.storage.set r.write.toNat b, write := next r.size r.write }, ?_,
      ⟨h.two, by simpa using h.len, h.rd, next_lt h.wr⟩, rfl, rfl, content_room h hne, content_snoc h hne b⟩
    rw [put, if_pos hne, store, if_pos (by have := h.wr; have := h.len; omega)]

theorem get_spec {r : Ring} (h : r.Ok) :
    (r.content = [] ∧ r.get = some (none, r)) ∨
    (∃ b r', r.get = some (some b, r') ∧ r'.Ok ∧ r'.size = r.size ∧ r'.write = r.write ∧ r'.storage = r.storage ∧ r.content = b :: r'.content) := by
  by_cases he : r.read = r.write
  · exact Or.inl ⟨(content_nil h).2 he, by rw [get, if_neg (by simp [he])]⟩
  · obtain ⟨b, h1, h2⟩ := content_cons h he
    exact Or.inr ⟨b, { r with read := next r.size r.read }, by rw [get, if_pos he, h1], ⟨h.two, h.len, next_lt h.rd, h.wr⟩, rfl, rfl, rfl, h2⟩

/-- The content does not depend on the byte behind the newest one. -/
theorem content_store {r : Ring} (h : r.Ok) (b : U8) :
    content { r with storage := r.storage.set r.write.toNat b } = r.content := by
  have h1 := h.rd; have h2 := h.wr; have h3 := h.len
  rw [content, content]
  apply List.map_congr_left
  intro i hi
  rw [List.mem_range] at hi
  have hne : r.idx i ≠ r.write.toNat := by
    simp only [idx]; simp only [count] at hi
    revert hi
    (repeat' split) <;> omega
  show (r.storage.set r.write.toNat b).getD (r.idx i) 0 = _
  simp only [List.getD_eq_getElem?_getD]
  rw [List.getElem?_set_ne (Ne.symm hne)]

theorem content_move {r : Ring} (h : r.Ok) (hne : r.content.length < r.size.toNat - 1) {b : U8} (hb : r.storage[r.write.toNat]? = some b) :
    content { r with write := next r.size r.write } = r.content ++ [b] := by
  have hr : r.read ≠ next r.size r.write := fun e => by have := content_full h e; omega
  have := content_snoc h hr b
  rw [← this]
  obtain ⟨hlt, hb⟩ := List.getElem?_eq_some_iff.1 hb
  have : r.storage.set r.write.toNat b = r.storage := by rw [← hb]; exact List.set_getElem_self hlt
  rw [this]

end Ring
end Vscp.Driver.Serial
