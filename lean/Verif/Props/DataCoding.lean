/-
Properties C01 - C05: data coding.
-/
import Verif.Lemmas.DataCoding

namespace Vscp.DataCoding
open Vscp.Spec

/-! ### C01 format byte -/

/-- C01: the three fields can be read back from the format byte. -/
theorem C01_format_byte_fields (r u i : U8)
    (hr : r.toNat < 8) (hu : u.toNat < 4) (hi : i.toNat < 8) :
    (getFormatByte r u i).toNat / 32 = r.toNat ∧
    (getFormatByte r u i).toNat / 8 % 4 = u.toNat ∧
    (getFormatByte r u i).toNat % 8 = i.toNat := by
  have h : ∀ (r : Fin 8) (u : Fin 4) (i : Fin 8),
    (getFormatByte (BitVec.ofNat 8 r) (BitVec.ofNat 8 u) (BitVec.ofNat 8 i)).toNat / 32 = r.val ∧
    (getFormatByte (BitVec.ofNat 8 r) (BitVec.ofNat 8 u) (BitVec.ofNat 8 i)).toNat / 8 % 4 = u.val ∧
    (getFormatByte (BitVec.ofNat 8 r) (BitVec.ofNat 8 u) (BitVec.ofNat 8 i)).toNat % 8 = i.val := by
    decide +kernel
  have := h ⟨r.toNat, hr⟩ ⟨u.toNat, hu⟩ ⟨i.toNat, hi⟩
  simpa using this

example : (getFormatByte 4 2 5).toNat = 4 * 32 + 2 * 8 + 5 := by decide

/-- C01: different triples give different format bytes. -/
theorem C01_format_byte_injective (r u i r' u' i' : U8)
    (hr : r.toNat < 8) (hu : u.toNat < 4) (hi : i.toNat < 8)
    (hr' : r'.toNat < 8) (hu' : u'.toNat < 4) (hi' : i'.toNat < 8)
    (h : getFormatByte r u i = getFormatByte r' u' i') : r = r' ∧ u = u' ∧ i = i' := by
  obtain ⟨a, b, c⟩ := C01_format_byte_fields r u i hr hu hi
  obtain ⟨a', b', c'⟩ := C01_format_byte_fields r' u' i' hr' hu' hi'
  rw [h] at a b c
  refine ⟨BitVec.eq_of_toNat_eq ?_, BitVec.eq_of_toNat_eq ?_, BitVec.eq_of_toNat_eq ?_⟩ <;> omega

/-- C01: out-of-range arguments are reduced to their field, they never disturb another field. -/
theorem C01_format_byte_masked (r u i : U8) :
    getFormatByte r u i =
      getFormatByte (BitVec.ofNat 8 (r.toNat % 8)) (BitVec.ofNat 8 (u.toNat % 4))
        (BitVec.ofNat 8 (i.toNat % 8)) := by
  have h : ∀ x : Fin 256,
      (BitVec.ofNat 8 (x.val % 8) &&& 0x07 : U8) = BitVec.ofNat 8 x &&& 0x07 ∧
      (BitVec.ofNat 8 (x.val % 4) &&& 0x03 : U8) = BitVec.ofNat 8 x &&& 0x03 := by decide +kernel
  have hr := (h ⟨r.toNat, r.isLt⟩).1
  have hu := (h ⟨u.toNat, u.isLt⟩).2
  have hi := (h ⟨i.toNat, i.isLt⟩).1
  simp only [BitVec.ofNat_toNat, BitVec.setWidth_eq] at hr hu hi
  unfold getFormatByte
  rw [hr, hu, hi]

/-! ### C02 encoder -/

/-- C02: for every value other than `INT32_MIN`, every exponent other than -128 and every large
enough buffer the encoder writes the normalizer byte holding the exponent followed by the
`n`-byte big-endian two's complement representation of the value, where `n` is the smallest
number of bytes for the magnitude; nothing behind it is changed. -/
theorem C02_encode_exact (data : U32) (exp : U8) (buf : List U8) (size : U8) (n : Nat)
    (hmin : data.toInt ≠ -2 ^ 31) (hexp : exp.toInt ≠ -128)
    (hn1 : 1 ≤ n) (hfit : fitsIn data.toInt n) (hleast : ∀ k, 1 ≤ k → k < n → ¬ fitsIn data.toInt k)
    (hsize : 1 + n ≤ size.toNat) (hbuf : size.toNat ≤ buf.length) :
    ∃ e bs, bs.length = n ∧
      int32ToNormalizedInteger data exp buf size
        = some (BitVec.ofNat 8 (1 + n), (e :: bs) ++ buf.drop (1 + n)) ∧
      exponentOf e = exp.toInt ∧ beInt bs = data.toInt := by
  rw [encode_eq data exp buf size hmin hbuf]
  have he := normalizer_exponent exp hexp
  have h31 : data.toInt.natAbs < 2 ^ 31 := by
    have h1 := BitVec.le_toInt data
    have h2 := BitVec.toInt_lt (x := data)
    simp at h1 h2
    omega
  generalize getNormalizerByte (if exp.slt 0 then 1 else 0) (if exp.slt 0 then -exp else exp) = nb at *
  have hn : n ≤ 4 := by
    by_cases h : n ≤ 4
    · exact h
    · exact absurd h31 (hleast 4 (by omega) (by omega))
  simp only [fitsIn] at hfit hleast
  have hn' : n = 1 ∨ n = 2 ∨ n = 3 ∨ n = 4 := by omega
  rcases hn' with rfl | rfl | rfl | rfl
  · simp at hfit
    refine ⟨nb, [byteAt data 0], rfl, ?_, he, beInt_1 data hfit⟩
    have : ¬ size.toNat < 2 := by omega
    simp [hfit, this]
  · have h1 := hleast 1 (by omega) (by omega)
    simp at hfit h1
    refine ⟨nb, [byteAt data 8, byteAt data 0], rfl, ?_, he, beInt_2 data hfit⟩
    have : ¬ size.toNat < 3 := by omega
    have h1' : ¬ data.toInt.natAbs < 128 := by omega
    simp [hfit, this, h1']
  · have h1 := hleast 1 (by omega) (by omega)
    have h2 := hleast 2 (by omega) (by omega)
    simp at hfit h1 h2
    refine ⟨nb, [byteAt data 16, byteAt data 8, byteAt data 0], rfl, ?_, he, beInt_3 data hfit⟩
    have : ¬ size.toNat < 4 := by omega
    have h1' : ¬ data.toInt.natAbs < 128 := by omega
    have h2' : ¬ data.toInt.natAbs < 32768 := by omega
    simp [hfit, this, h1', h2']
  · have h1 := hleast 1 (by omega) (by omega)
    have h2 := hleast 2 (by omega) (by omega)
    have h3 := hleast 3 (by omega) (by omega)
    simp at hfit h1 h2 h3
    refine ⟨nb, [byteAt data 24, byteAt data 16, byteAt data 8, byteAt data 0], rfl, ?_, he,
      beInt_4 data⟩
    have : ¬ size.toNat < 5 := by omega
    have h1' : ¬ data.toInt.natAbs < 128 := by omega
    have h2' : ¬ data.toInt.natAbs < 32768 := by omega
    have h3' : ¬ data.toInt.natAbs < 8388608 := by omega
    simp [this, h1', h2', h3']

/-- The hypotheses of C02 are met by -300 * 10^-2 in a 3 byte buffer. -/
example : ∃ e bs, bs.length = 2 ∧
    int32ToNormalizedInteger (-300) (-2) [1, 2, 3] 3 = some (3, (e :: bs) ++ []) ∧
    exponentOf e = -2 ∧ beInt bs = -300 :=
  C02_encode_exact (-300) (-2) [1, 2, 3] 3 2 (by decide) (by decide) (by omega)
    (by unfold fitsIn; decide)
    (by intro k h1 h2; have : k = 1 := by omega
        subst this; unfold fitsIn; decide)
    (by decide) (by decide)

/-- C02: the smallest number of bytes exists and is at most four for every value but `INT32_MIN`,
hence a buffer of five bytes always suffices. -/
theorem C02_size_exists (data : U32) (hmin : data.toInt ≠ -2 ^ 31) :
    ∃ n, 1 ≤ n ∧ n ≤ 4 ∧ fitsIn data.toInt n ∧ ∀ k, 1 ≤ k → k < n → ¬ fitsIn data.toInt k := by
  have h31 : data.toInt.natAbs < 2 ^ 31 := by
    have h1 := BitVec.le_toInt data
    have h2 := BitVec.toInt_lt (x := data)
    simp at h1 h2
    omega
  unfold fitsIn
  generalize data.toInt.natAbs = a at *
  by_cases h1 : a < 2 ^ 7
  · exact ⟨1, by omega, by omega, h1, fun k _ _ => by omega⟩
  by_cases h2 : a < 2 ^ 15
  · refine ⟨2, by omega, by omega, h2, fun k _ _ => ?_⟩
    have : k = 1 := by omega
    subst this; exact h1
  by_cases h3 : a < 2 ^ 23
  · refine ⟨3, by omega, by omega, h3, fun k _ _ => ?_⟩
    have : k = 1 ∨ k = 2 := by omega
    rcases this with rfl | rfl
    · exact h1
    · exact h2
  · refine ⟨4, by omega, by omega, h31, fun k _ _ => ?_⟩
    have : k = 1 ∨ k = 2 ∨ k = 3 := by omega
    rcases this with rfl | rfl | rfl
    · exact h1
    · exact h2
    · exact h3

/-- C02, excluded value: encoding `INT32_MIN` is undefined behaviour (signed overflow of
`-1 * data`). -/
theorem C02_int32_min_is_undefined (exp : U8) (buf : List U8) (size : U8) :
    int32ToNormalizedInteger 0x80000000 exp buf size = none := by
  simp [int32ToNormalizedInteger]

/-! ### C03 round trip -/

/-- Encode into a five byte buffer, then decode what was produced. -/
def roundTrip (data : U32) (exp : U8) (buf : List U8) : Option (U32 × U8) := do
  let (n, m) ← int32ToNormalizedInteger data exp buf 5
  normalizedIntegerToInt32 m n

/-- C03 is violated: -11 (exponent 0) comes back as 245. -/
theorem C03_roundtrip_violated :
    ∃ (data : U32) (exp : U8), data.toInt = -11 ∧ exp = 0 ∧
      roundTrip data exp [0, 0, 0, 0, 0] = some (245, 0) :=
  ⟨-11, 0, by decide, rfl, by decide⟩

/-- C03, exactly how it is violated: every value in -127..-1 comes back 256 too large, every value
in -32767..-128 comes back 65536 too large (the sign of one and two byte values is lost). -/
theorem C03_negative_small_values_decode_wrong (data : U32) (exp : U8) (buf : List U8)
    (hbuf : 5 ≤ buf.length) (hexp : exp.toInt ≠ -128) (hneg : data.toInt < 0)
    (hsmall : -0x8000 < data.toInt) :
    ∃ d : U32, roundTrip data exp buf = some (d, exp) ∧
      d.toInt = data.toInt + (if -0x80 < data.toInt then 256 else 65536) ∧ d ≠ data := by
  have hd := data.isLt
  have he : decExp _ = exp := decode_exp exp hexp
  rw [roundTrip, encode_eq data exp buf 5 (by omega) (by simpa using hbuf)]
  generalize getNormalizerByte (if exp.slt 0 then 1 else 0) (if exp.slt 0 then -exp else exp) = nb at *
  have b0 := byteAt_toNat data 0 (by omega)
  have b8 := byteAt_toNat data 8 (by omega)
  by_cases h : data.toInt.natAbs < 0x80
  · refine ⟨(byteAt data 0).setWidth 32, ?_, ?_⟩
    · simp only [h, if_true, Option.bind_eq_bind, Option.bind_some]
      rw [← he]
      exact decode_2 ..
    · have hx : ((byteAt data 0).setWidth 32 : U32).toNat = data.toNat % 256 := by
        simp only [BitVec.toNat_setWidth, b0]; omega
      have h1 : -0x80 < data.toInt := by omega
      rw [if_pos h1]
      refine ⟨?_, fun hh => ?_⟩
      · rw [toInt_cond, hx]
        rw [toInt_cond] at *
        split at h <;> split <;> omega
      · rw [hh] at hx
        rw [toInt_cond] at *
        split at h <;> omega
  · have h2 : data.toInt.natAbs < 0x8000 := by omega
    refine ⟨(((byteAt data 8).setWidth 32 : U32) <<< 8) ||| (byteAt data 0).setWidth 32, ?_, ?_⟩
    · simp only [h, h2, if_true, if_false, Option.bind_eq_bind, Option.bind_some]
      rw [← he]
      exact decode_3 ..
    · have hx := join2 (byteAt data 8) (byteAt data 0)
      rw [b0, b8] at hx
      have h1 : ¬ -0x80 < data.toInt := by omega
      rw [if_neg h1]
      refine ⟨?_, fun hh => ?_⟩
      · rw [toInt_cond, hx]
        rw [toInt_cond] at *
        split at h <;> split <;> omega
      · rw [hh] at hx
        rw [toInt_cond] at *
        split at h <;> omega

example : (-200 : U32).toInt < 0 ∧ -0x8000 < (-200 : U32).toInt := by decide

/-- C03 (partial): every non-negative value and every value of at most -32768 (except `INT32_MIN`)
survives encoding and decoding together with its exponent.  Missing: values in -32767..-1, for which the
property is false, see `C03_negative_small_values_decode_wrong`. -/
theorem C03_roundtrip_partial (data : U32) (exp : U8) (buf : List U8) (hbuf : 5 ≤ buf.length)
    (hexp : exp.toInt ≠ -128) (hmin : data.toInt ≠ -2 ^ 31)
    (hval : 0 ≤ data.toInt ∨ data.toInt ≤ -0x8000) :
    roundTrip data exp buf = some (data, exp) := by
  have hd := data.isLt
  have he : decExp _ = exp := decode_exp exp hexp
  rw [roundTrip, encode_eq data exp buf 5 (by omega) (by simpa using hbuf)]
  generalize getNormalizerByte (if exp.slt 0 then 1 else 0) (if exp.slt 0 then -exp else exp) = nb at *
  have b0 := byteAt_toNat data 0 (by omega)
  have b8 := byteAt_toNat data 8 (by omega)
  have b16 := byteAt_toNat data 16 (by omega)
  have b24 := byteAt_toNat data 24 (by omega)
  by_cases h1 : data.toInt.natAbs < 0x80
  · simp only [h1, if_true, Option.bind_eq_bind, Option.bind_some]
    simp only [BitVec.reduceToNat, Nat.reduceLT, if_false]
    simp only [List.cons_append, List.nil_append, decode_2, he]
    congr 2
    apply BitVec.eq_of_toNat_eq
    simp only [BitVec.toNat_setWidth, b0]
    rw [toInt_cond] at *
    split at h1 <;> omega
  by_cases h2 : data.toInt.natAbs < 0x8000
  · simp only [h1, h2, if_true, if_false, Option.bind_eq_bind, Option.bind_some]
    simp only [BitVec.reduceToNat, Nat.reduceLT, if_false]
    simp only [List.cons_append, List.nil_append, decode_3, he]
    congr 2
    apply BitVec.eq_of_toNat_eq
    rw [join2, b0, b8]
    rw [toInt_cond] at *
    split at h1 <;> omega
  by_cases h3 : data.toInt.natAbs < 0x800000
  · simp only [h1, h2, h3, if_true, if_false, Option.bind_eq_bind, Option.bind_some]
    simp only [BitVec.reduceToNat, Nat.reduceLT, if_false]
    simp only [List.cons_append, List.nil_append]
    obtain ⟨d, hdec, hdn⟩ := decode_4_toNat nb (byteAt data 16) (byteAt data 8) (byteAt data 0)
      (List.drop 4 buf)
    rw [hdec, he]
    congr 2
    apply BitVec.eq_of_toNat_eq
    rw [hdn, b0, b8, b16]
    rw [toInt_cond] at *
    split at h3 <;> split <;> omega
  · simp only [h1, h2, h3, if_false, Option.bind_eq_bind, Option.bind_some]
    simp only [BitVec.reduceToNat, Nat.reduceLT, if_false]
    simp only [List.cons_append, List.nil_append]
    obtain ⟨d, hdec, hdn⟩ := decode_5_toNat nb (byteAt data 24) (byteAt data 16) (byteAt data 8)
      (byteAt data 0) (List.drop 5 buf)
    rw [hdec, he]
    congr 2
    apply BitVec.eq_of_toNat_eq
    rw [hdn, b0, b8, b16, b24]
    omega

example : roundTrip (-70000) (-3) [9, 9, 9, 9, 9] = some (-70000, -3) :=
  C03_roundtrip_partial _ _ _ (by decide) (by decide) (by decide) (by decide)

/-! ### C04 buffer safety -/

/-- C04: whatever the value, exponent and announced size, as long as the announced size is really
available nothing outside of the announced size is accessed, the reported size is at most the
announced one and only the reported bytes are changed. -/
theorem C04_encode_within_buffer (data : U32) (exp : U8) (buf : List U8) (size : U8)
    (hmin : data.toInt ≠ -2 ^ 31) (hbuf : size.toNat ≤ buf.length) :
    ∃ k m, int32ToNormalizedInteger data exp buf size = some (k, m) ∧
      k.toNat ≤ size.toNat ∧ m.length = buf.length ∧
      ∀ i, k.toNat ≤ i → m[i]? = buf[i]? := by
  rw [encode_eq data exp buf size hmin hbuf]
  generalize getNormalizerByte (if exp.slt 0 then 1 else 0) (if exp.slt 0 then -exp else exp) = nb
  have key : ∀ (pre : List U8) (k : U8), k.toNat = pre.length → ¬ size.toNat < pre.length →
      ∃ k' m, some (k, pre ++ buf.drop pre.length) = some (k', m) ∧
      k'.toNat ≤ size.toNat ∧ m.length = buf.length ∧
      ∀ i, k'.toNat ≤ i → m[i]? = buf[i]? := by
    intro pre k hk hs
    refine ⟨k, _, rfl, by omega, by simp; omega, fun i hi => ?_⟩
    rw [List.getElem?_append_right (by omega), List.getElem?_drop]
    congr 1; omega
  have zero : ∃ k' m, some ((0 : U8), buf) = some (k', m) ∧
      k'.toNat ≤ size.toNat ∧ m.length = buf.length ∧
      ∀ i, k'.toNat ≤ i → m[i]? = buf[i]? := ⟨0, buf, rfl, by simp, rfl, fun _ _ => rfl⟩
  dsimp only
  split
  · split
    · exact zero
    · exact key [nb, byteAt data 0] 2 rfl (by simpa using by omega)
  · split
    · split
      · exact zero
      · exact key [nb, byteAt data 8, byteAt data 0] 3 rfl (by simpa using by omega)
    · split
      · split
        · exact zero
        · exact key [nb, byteAt data 16, byteAt data 8, byteAt data 0] 4 rfl (by simpa using by omega)
      · split
        · exact zero
        · exact key [nb, byteAt data 24, byteAt data 16, byteAt data 8, byteAt data 0] 5 rfl
            (by simpa using by omega)

example : int32ToNormalizedInteger 1000 0 [7, 8, 9, 10] 3 = some (3, [0, 3, 0xe8, 10]) := by decide

/-- C04: a value that does not fit is refused: 0 is returned and the buffer is untouched. -/
theorem C04_encode_refuses_short_buffer (data : U32) (exp : U8) (buf : List U8) (size : U8)
    (hmin : data.toInt ≠ -2 ^ 31) (hbuf : size.toNat ≤ buf.length)
    (hshort : ∀ n, 1 ≤ n → fitsIn data.toInt n → size.toNat < 1 + n) :
    int32ToNormalizedInteger data exp buf size = some (0, buf) := by
  rw [encode_eq data exp buf size hmin hbuf]
  have h31 : data.toInt.natAbs < 2 ^ 31 := by
    have h1 := BitVec.le_toInt data
    have h2 := BitVec.toInt_lt (x := data)
    simp at h1 h2
    omega
  unfold fitsIn at hshort
  generalize data.toInt.natAbs = a at *
  dsimp only
  split
  · have := hshort 1 (by omega) (by simpa using by omega)
    rw [if_pos (by omega)]
  · split
    · have := hshort 2 (by omega) (by simpa using by omega)
      rw [if_pos (by omega)]
    · split
      · have := hshort 3 (by omega) (by simpa using by omega)
        rw [if_pos (by omega)]
      · have := hshort 4 (by omega) (by simpa using by omega)
        rw [if_pos (by omega)]

/-- The hypotheses are met by 1000 and a two byte buffer. -/
example : int32ToNormalizedInteger 1000 0 [7, 8] 2 = some (0, [7, 8]) :=
  C04_encode_refuses_short_buffer 1000 0 [7, 8] 2 (by decide) (by decide) (by
    intro n h1 h
    by_cases h2 : n = 1
    · subst h2; exact absurd h (by unfold fitsIn; decide)
    · simp; omega)

/-! ### C05 decoder -/

/-- C05: malformed lengths are ignored, whatever the bytes are (even if there are none). -/
theorem C05_decode_bad_length (bytes : List U8) (size : U8) (h : size.toNat = 0 ∨ 5 < size.toNat) :
    normalizedIntegerToInt32 bytes size = some (0, 0) := by
  unfold normalizedIntegerToInt32
  rw [if_pos]
  simpa [BitVec.lt_def] using by omega

/-- C05: decoding never reads behind the announced length, it depends on nothing else than those
bytes, and the exponent obtained is the sign-magnitude exponent of the first byte. -/
theorem C05_decode_total (bytes rest : List U8) (h1 : 1 ≤ bytes.length) (h5 : bytes.length ≤ 5) :
    ∃ d e, normalizedIntegerToInt32 bytes (BitVec.ofNat 8 bytes.length) = some (d, e) ∧
      normalizedIntegerToInt32 (bytes ++ rest) (BitVec.ofNat 8 bytes.length) = some (d, e) ∧
      (∀ b, bytes[0]? = some b → e.toInt = exponentOf b) ∧ -127 ≤ e.toInt ∧ e.toInt ≤ 127 := by
  have hexp : ∀ c : U8, (decExp c).toInt = exponentOf c ∧ -127 ≤ (decExp c).toInt ∧
      (decExp c).toInt ≤ 127 := by
    intro c
    have : ∀ c : Fin 256, (decExp (BitVec.ofNat 8 c)).toInt = exponentOf (BitVec.ofNat 8 c) ∧
      -127 ≤ (decExp (BitVec.ofNat 8 c)).toInt ∧ (decExp (BitVec.ofNat 8 c)).toInt ≤ 127 := by
      decide +kernel
    simpa using this ⟨c.toNat, c.isLt⟩
  match bytes, h1, h5 with
  | [a], _, _ =>
    exact ⟨0, decExp a, by simp [normalizedIntegerToInt32, decExp],
      by simp [normalizedIntegerToInt32, decExp], by simpa using hexp a⟩
  | [a, b], _, _ =>
    exact ⟨_, decExp a, decode_2 .., decode_2 .., by simpa using hexp a⟩
  | [a, b, c], _, _ =>
    exact ⟨_, decExp a, decode_3 .., decode_3 .., by simpa using hexp a⟩
  | [a, b, c, d], _, _ =>
    exact ⟨_, decExp a, decode_4 .., decode_4 .., by simpa using hexp a⟩
  | [a, b, c, d, e], _, _ =>
    exact ⟨_, decExp a, decode_5 .., decode_5 .., by simpa using hexp a⟩

/-- C05: three and four byte values are decoded as two's complement, one and two byte values as
unsigned numbers (the defect of C03). -/
theorem C05_decode_value (e : U8) (bs : List U8) (h1 : 1 ≤ bs.length) (h4 : bs.length ≤ 4) :
    ∃ d x, normalizedIntegerToInt32 (e :: bs) (BitVec.ofNat 8 (1 + bs.length)) = some (d, x) ∧
      d.toInt = if bs.length ≤ 2 then (beNat bs : Int) else beInt bs := by
  have hlt : ∀ c : U8, c.toNat < 256 := fun c => c.isLt
  match bs, h1, h4 with
  | [a], _, _ =>
    refine ⟨_, _, decode_2 .., ?_⟩
    have := hlt a
    rw [toInt_cond]; simp [beNat]; omega
  | [a, b], _, _ =>
    refine ⟨_, _, decode_3 .., ?_⟩
    have := hlt a
    have := hlt b
    rw [toInt_cond, join2]; simp [beNat]; omega
  | [a, b, c], _, _ =>
    obtain ⟨d, hd, hn⟩ := decode_4_toNat e a b c []
    refine ⟨d, _, hd, ?_⟩
    have := hlt a
    have := hlt b
    have := hlt c
    rw [toInt_cond, hn]; simp [beNat, beInt]
    split <;> split <;> omega
  | [a, b, c, f], _, _ =>
    obtain ⟨d, hd, hn⟩ := decode_5_toNat e a b c f []
    refine ⟨d, _, hd, ?_⟩
    have := hlt a
    have := hlt b
    have := hlt c
    have := hlt f
    rw [toInt_cond, hn]; simp [beNat, beInt]
    split <;> split <;> omega

example : normalizedIntegerToInt32 [0x83, 0xff, 0xff, 0xfe] 4 = some (-2, -3) := by decide

end Vscp.DataCoding
