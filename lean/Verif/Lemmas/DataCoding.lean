/-
Helper lemmas for C01 - C05.
-/
import Verif.Model.DataCoding
import Verif.Spec.DataCoding
import Verif.Lemmas.Bits

namespace Vscp.DataCoding
open Vscp.Spec

theorem getElem_255 (i : Nat) (h : i < 8) : (255#8)[i] = true := by
  have : ∀ i : Fin 8, (255#8)[i.val]'(i.isLt) = true := by decide
  exact this ⟨i, h⟩

theorem byteAt_toNat (d : U32) (k : Nat) (h : k ≤ 24) :
    (byteAt d k).toNat = d.toNat / 2 ^ k % 256 := by
  have : byteAt d k = (d >>> k).setWidth 8 := by
    unfold byteAt
    ext i hi
    have h2 : ¬ (32 ≤ i) := by omega
    have h3 : k + i < 32 := by omega
    simp [BitVec.getLsbD_sshiftRight, h2, h3, getElem_255 i hi]
  rw [this]
  simp [Nat.shiftRight_eq_div_pow]

/-- Magnitude computed by the code. -/
theorem mag_toNat (d : U32) (h : d ≠ 0x80000000) :
    (if d.slt 0 then -d else d).toNat = d.toInt.natAbs := by
  have hd := d.isLt
  have h' : d.toNat ≠ 0x80000000 := by
    intro hh; apply h; apply BitVec.eq_of_toNat_eq; simpa using hh
  simp only [BitVec.slt, BitVec.toInt_eq_toNat_cond]
  simp
  split <;> split <;> simp_all <;> omega

theorem normalizer_exponent (exp : U8) (h : exp.toInt ≠ -128) :
    exponentOf (getNormalizerByte (if exp.slt 0 then 1 else 0) (if exp.slt 0 then -exp else exp))
      = exp.toInt := by
  revert h
  have : ∀ e : Fin 256, (BitVec.ofNat 8 e).toInt ≠ -128 →
    exponentOf (getNormalizerByte (if (BitVec.ofNat 8 e).slt 0 then 1 else 0)
      (if (BitVec.ofNat 8 e).slt 0 then -(BitVec.ofNat 8 e) else (BitVec.ofNat 8 e)))
      = (BitVec.ofNat 8 e).toInt := by decide +kernel
  simpa using this ⟨exp.toNat, exp.isLt⟩

theorem wr_cons_zero {α} (a v : α) (m : List α) : wr (a :: m) 0 v = some (v :: m) := by
  simp [wr]

theorem wr_cons_succ {α} (a v : α) (m : List α) (i : Nat) :
    wr (a :: m) (i + 1) v = (wr m i v).map (a :: ·) := by
  simp [wr]

/-- What the encoder computes when the announced size is really available. -/
theorem encode_eq (d : U32) (e : U8) (m : List U8) (s : U8)
    (hd : d.toInt ≠ -2 ^ 31) (hs : s.toNat ≤ m.length) :
    int32ToNormalizedInteger d e m s =
      let nb := getNormalizerByte (if e.slt 0 then 1 else 0) (if e.slt 0 then -e else e)
      let a := d.toInt.natAbs
      some (
        if a < 0x80 then
          if s.toNat < 2 then (0, m) else (2, [nb, byteAt d 0] ++ m.drop 2)
        else if a < 0x8000 then
          if s.toNat < 3 then (0, m) else (3, [nb, byteAt d 8, byteAt d 0] ++ m.drop 3)
        else if a < 0x800000 then
          if s.toNat < 4 then (0, m) else (4, [nb, byteAt d 16, byteAt d 8, byteAt d 0] ++ m.drop 4)
        else
          if s.toNat < 5 then (0, m)
          else (5, [nb, byteAt d 24, byteAt d 16, byteAt d 8, byteAt d 0] ++ m.drop 5)) := by
  have hne : d ≠ 0x80000000 := by
    intro h; apply hd; subst h; decide
  have hmag := mag_toNat d hne
  unfold int32ToNormalizedInteger
  simp only [hne, if_false]
  generalize hM : (if d.slt 0 then -d else d) = M at *
  generalize getNormalizerByte (if e.slt 0 then 1 else 0) (if e.slt 0 then -e else e) = nb
  simp only [BitVec.lt_def, hmag]
  generalize d.toInt.natAbs = a
  by_cases h1 : a < 0x80
  · by_cases h2 : s.toNat < 2
    · simp [h1, h2]
    · obtain ⟨x, y, m', rfl⟩ : ∃ x y m', m = x :: y :: m' := by
        match m, hs with
        | x :: y :: m', _ => exact ⟨x, y, m', rfl⟩
        | [x], h => simp at h; omega
        | [], h => simp at h; omega
      simp [h1, h2, wr]
  · by_cases h1' : a < 0x8000
    · by_cases h2 : s.toNat < 3
      · simp [h1, h1', h2]
      · obtain ⟨x, y, z, m', rfl⟩ : ∃ x y z m', m = x :: y :: z :: m' := by
          match m, hs with
          | x :: y :: z :: m', _ => exact ⟨x, y, z, m', rfl⟩
          | [x, y], h => simp at h; omega
          | [x], h => simp at h; omega
          | [], h => simp at h; omega
        simp [h1, h1', h2, wr]
    · by_cases h1'' : a < 0x800000
      · by_cases h2 : s.toNat < 4
        · simp [h1, h1', h1'', h2]
        · obtain ⟨x, y, z, w, m', rfl⟩ : ∃ x y z w m', m = x :: y :: z :: w :: m' := by
            match m, hs with
            | x :: y :: z :: w :: m', _ => exact ⟨x, y, z, w, m', rfl⟩
            | [x, y, z], h => simp at h; omega
            | [x, y], h => simp at h; omega
            | [x], h => simp at h; omega
            | [], h => simp at h; omega
          simp [h1, h1', h1'', h2, wr]
      · by_cases h2 : s.toNat < 5
        · simp [h1, h1', h1'', h2]
        · obtain ⟨x, y, z, w, v, m', rfl⟩ : ∃ x y z w v m', m = x :: y :: z :: w :: v :: m' := by
            match m, hs with
            | x :: y :: z :: w :: v :: m', _ => exact ⟨x, y, z, w, v, m', rfl⟩
            | [x, y, z, w], h => simp at h; omega
            | [x, y, z], h => simp at h; omega
            | [x, y], h => simp at h; omega
            | [x], h => simp at h; omega
            | [], h => simp at h; omega
          simp [h1, h1', h1'', h2, wr]

theorem toInt_cond (d : U32) :
    d.toInt = if d.toNat < 2 ^ 31 then (d.toNat : Int) else (d.toNat : Int) - 2 ^ 32 := by
  rw [BitVec.toInt_eq_toNat_cond]; split <;> split <;> omega

theorem beInt_1 (d : U32) (h : d.toInt.natAbs < 0x80) : beInt [byteAt d 0] = d.toInt := by
  have := d.isLt
  simp only [beInt, beNat, byteAt_toNat d 0 (by omega)]
  rw [toInt_cond] at *
  simp at *
  split at h <;> split <;> (try split) <;> omega

theorem beInt_2 (d : U32) (h : d.toInt.natAbs < 0x8000) :
    beInt [byteAt d 8, byteAt d 0] = d.toInt := by
  have := d.isLt
  simp only [beInt, beNat, byteAt_toNat d 0 (by omega), byteAt_toNat d 8 (by omega)]
  rw [toInt_cond] at *
  simp at *
  split at h <;> split <;> (try split) <;> omega

theorem beInt_3 (d : U32) (h : d.toInt.natAbs < 0x800000) :
    beInt [byteAt d 16, byteAt d 8, byteAt d 0] = d.toInt := by
  have := d.isLt
  simp only [beInt, beNat, byteAt_toNat d 0 (by omega), byteAt_toNat d 8 (by omega),
    byteAt_toNat d 16 (by omega)]
  rw [toInt_cond] at *
  simp at *
  split at h <;> split <;> (try split) <;> omega

theorem beInt_4 (d : U32) :
    beInt [byteAt d 24, byteAt d 16, byteAt d 8, byteAt d 0] = d.toInt := by
  have := d.isLt
  simp only [beInt, beNat, byteAt_toNat d 0 (by omega), byteAt_toNat d 8 (by omega),
    byteAt_toNat d 16 (by omega), byteAt_toNat d 24 (by omega)]
  rw [toInt_cond] at *
  simp at *
  split <;> (try split) <;> omega

theorem join2 (a b : U8) :
    (((a.setWidth 32 : U32) <<< 8) ||| b.setWidth 32).toNat = a.toNat * 256 + b.toNat := by
  have ha := a.isLt
  have hb := b.isLt
  simp only [BitVec.toNat_or, BitVec.toNat_shiftLeft, BitVec.toNat_setWidth, Nat.shiftLeft_eq]
  rw [nat_or_eq_add 8 _ _ (by omega) (by omega)]
  omega

theorem join3 (s a b c : U32) (hs : s.toNat % 2 ^ 24 = 0) (ha : a.toNat < 256) (hb : b.toNat < 256)
    (hc : c.toNat < 256) :
    (((s ||| (a <<< 16)) ||| (b <<< 8)) ||| c).toNat
      = s.toNat + a.toNat * 65536 + b.toNat * 256 + c.toNat := by
  have h := s.isLt
  simp only [BitVec.toNat_or, BitVec.toNat_shiftLeft, Nat.shiftLeft_eq]
  rw [nat_or_eq_add 24 s.toNat _ (by omega) (by omega)]
  rw [nat_or_eq_add 16 (s.toNat + _) _ (by omega) (by omega)]
  rw [nat_or_eq_add 8 (s.toNat + _ + _) _ (by omega) (by omega)]
  omega

theorem and80 (b : U8) : (0 ≠ (b &&& 0x80)) ↔ 128 ≤ b.toNat := by
  have : ∀ b : Fin 256, (0 ≠ ((BitVec.ofNat 8 b) &&& (0x80 : U8))) ↔ 128 ≤ b.val := by
    decide +kernel
  simpa using this ⟨b.toNat, b.isLt⟩

theorem decode_exp (exp : U8) (h : exp.toInt ≠ -128) :
    (let c0 := getNormalizerByte (if exp.slt 0 then 1 else 0) (if exp.slt 0 then -exp else exp)
     if 0 ≠ (c0 &&& 0x80) then (c0 &&& 0x7f) * (-1) else c0 &&& 0x7f) = exp := by
  revert h
  have : ∀ e : Fin 256, (BitVec.ofNat 8 e).toInt ≠ -128 →
    (let c0 := getNormalizerByte (if (BitVec.ofNat 8 e).slt 0 then 1 else 0)
        (if (BitVec.ofNat 8 e).slt 0 then -(BitVec.ofNat 8 e) else (BitVec.ofNat 8 e))
     if 0 ≠ (c0 &&& 0x80) then (c0 &&& 0x7f) * (-1) else c0 &&& 0x7f) = BitVec.ofNat 8 e := by
    decide +kernel
  simpa using this ⟨exp.toNat, exp.isLt⟩

/-- exponent computed by the decoder from the first byte -/
def decExp (c0 : U8) : U8 := if 0 ≠ (c0 &&& 0x80) then (c0 &&& 0x7f) * (-1) else c0 &&& 0x7f

theorem decode_2 (c0 c1 : U8) (r : List U8) :
    normalizedIntegerToInt32 (c0 :: c1 :: r) 2 = some (c1.setWidth 32, decExp c0) := by
  simp [normalizedIntegerToInt32, decExp]

theorem decode_3 (c0 c1 c2 : U8) (r : List U8) :
    normalizedIntegerToInt32 (c0 :: c1 :: c2 :: r) 3
      = some (((c1.setWidth 32 : U32) <<< 8) ||| c2.setWidth 32, decExp c0) := by
  simp [normalizedIntegerToInt32, decExp]

theorem decode_4 (c0 c1 c2 c3 : U8) (r : List U8) :
    normalizedIntegerToInt32 (c0 :: c1 :: c2 :: c3 :: r) 4
      = some ((((if 0 ≠ (c1 &&& 0x80) then 0xff000000 else 0 : U32) ||| ((c1.setWidth 32 : U32) <<< 16))
          ||| ((c2.setWidth 32 : U32) <<< 8)) ||| c3.setWidth 32, decExp c0) := by
  simp [normalizedIntegerToInt32, decExp]

theorem decode_5 (c0 c1 c2 c3 c4 : U8) (r : List U8) :
    normalizedIntegerToInt32 (c0 :: c1 :: c2 :: c3 :: c4 :: r) 5
      = some (((((c1.setWidth 32 : U32) <<< 24) ||| ((c2.setWidth 32 : U32) <<< 16))
          ||| ((c3.setWidth 32 : U32) <<< 8)) ||| c4.setWidth 32, decExp c0) := by
  simp [normalizedIntegerToInt32, decExp]

theorem decode_4_toNat (c0 c1 c2 c3 : U8) (r : List U8) :
    ∃ d : U32, normalizedIntegerToInt32 (c0 :: c1 :: c2 :: c3 :: r) 4 = some (d, decExp c0) ∧
      d.toNat = (if 128 ≤ c1.toNat then 0xff000000 else 0) + c1.toNat * 65536 + c2.toNat * 256
        + c3.toNat := by
  refine ⟨_, decode_4 c0 c1 c2 c3 r, ?_⟩
  have h1 := c1.isLt
  have h2 := c2.isLt
  have h3 := c3.isLt
  have e : ∀ c : U8, (c.setWidth 32 : U32).toNat = c.toNat := by
    intro c; have := c.isLt; simp; omega
  rw [join3 _ _ _ _ (by split <;> decide) (by rw [e]; exact h1) (by rw [e]; exact h2)
    (by rw [e]; exact h3)]
  rw [e, e, e]
  simp only [and80]
  split <;> simp

theorem decode_5_toNat (c0 c1 c2 c3 c4 : U8) (r : List U8) :
    ∃ d : U32, normalizedIntegerToInt32 (c0 :: c1 :: c2 :: c3 :: c4 :: r) 5 = some (d, decExp c0) ∧
      d.toNat = c1.toNat * 16777216 + c2.toNat * 65536 + c3.toNat * 256 + c4.toNat := by
  refine ⟨_, decode_5 c0 c1 c2 c3 c4 r, ?_⟩
  have h1 := c1.isLt
  have h2 := c2.isLt
  have h3 := c3.isLt
  have h4 := c4.isLt
  have e : ∀ c : U8, (c.setWidth 32 : U32).toNat = c.toNat := by
    intro c; have := c.isLt; simp; omega
  rw [join3 _ _ _ _ (by simp only [BitVec.toNat_shiftLeft, Nat.shiftLeft_eq]; omega)
    (by rw [e]; exact h2) (by rw [e]; exact h3) (by rw [e]; exact h4)]
  rw [e, e, e]
  simp only [BitVec.toNat_shiftLeft, Nat.shiftLeft_eq, e]
  omega

end Vscp.DataCoding
