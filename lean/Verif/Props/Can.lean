/-
CAN adapters of the examples: C60 (identifier and payload), C66 (foreign frames), C67 (length), C68 (transmission attempts), C69 and C70 (adapter for the
FlexCAN controller).
-/
import Verif.Spec.Driver

namespace Vscp.CanProps
open Vscp.Driver Vscp.Driver.Can Vscp.Spec.Drv

theorem or_disj (a b k : Nat) (h : b < 2 ^ k) : (a * 2 ^ k) ||| b = a * 2 ^ k + b := by
  rw [← Nat.shiftLeft_eq, Nat.shiftLeft_add_eq_or_of_lt h]

theorem and_low (x k : Nat) : x &&& (2 ^ k - 1) = x % 2 ^ k := Nat.and_two_pow_sub_one_eq_mod x k

theorem packId_toNat (m : Msg) (hp : m.prio.toNat < 8) (hc : m.cls.toNat < 512) : (packId m).toNat = canId m := by
  have ht := m.typ.isLt
  have ho := m.oAddr.isLt
  have hh : (if m.hard then 1 else 0 : U32).toNat = m.hard.toNat := by cases m.hard <;> rfl
  have hh1 : m.hard.toNat < 2 := by cases m.hard <;> decide
  unfold packId canId
  rw [BitVec.or_assoc, BitVec.or_assoc, BitVec.or_assoc]
  simp only [BitVec.toNat_or, BitVec.toNat_shiftLeft, BitVec.toNat_setWidth, hh, Nat.shiftLeft_eq]
  rw [Nat.mod_eq_of_lt (by omega : m.prio.toNat < 2 ^ 32), Nat.mod_eq_of_lt (by omega : m.cls.toNat < 2 ^ 32), Nat.mod_eq_of_lt (by omega : m.typ.toNat < 2 ^ 32),
    Nat.mod_eq_of_lt (by omega : m.oAddr.toNat < 2 ^ 32), Nat.mod_eq_of_lt (by omega : m.prio.toNat * 2 ^ 26 < 2 ^ 32),
    Nat.mod_eq_of_lt (by omega : m.hard.toNat * 2 ^ 25 < 2 ^ 32), Nat.mod_eq_of_lt (by omega : m.cls.toNat * 2 ^ 16 < 2 ^ 32),
    Nat.mod_eq_of_lt (by omega : m.typ.toNat * 2 ^ 8 < 2 ^ 32)]
  rw [or_disj m.typ.toNat _ 8 (by omega), or_disj m.cls.toNat _ 16 (by omega), or_disj m.hard.toNat _ 25 (by omega), or_disj m.prio.toNat _ 26 (by omega)]
  omega

theorem unpack_cls (x : U32) : (((x >>> 16) &&& 0x01FF).setWidth 16 : U16).toNat = x.toNat / 65536 % 512 := by
  simp only [BitVec.toNat_setWidth, BitVec.toNat_and, BitVec.toNat_ushiftRight, Nat.shiftRight_eq_div_pow]
  rw [show (0x01FF : U32).toNat = 2 ^ 9 - 1 from rfl, and_low]
  omega

theorem unpack_typ (x : U32) : (((x >>> 8) &&& 0x00FF).setWidth 8 : U8).toNat = x.toNat / 256 % 256 := by
  simp only [BitVec.toNat_setWidth, BitVec.toNat_and, BitVec.toNat_ushiftRight, Nat.shiftRight_eq_div_pow]
  rw [show (0x00FF : U32).toNat = 2 ^ 8 - 1 from rfl, and_low]
  omega

theorem unpack_oAddr (x : U32) : ((x &&& 0x00FF).setWidth 8 : U8).toNat = x.toNat % 256 := by
  simp only [BitVec.toNat_setWidth, BitVec.toNat_and]
  rw [show (0x00FF : U32).toNat = 2 ^ 8 - 1 from rfl, and_low]
  omega

theorem unpack_hard (x : U32) : (((x >>> 25) &&& 0x0001).setWidth 8 : U8).toNat = x.toNat / 33554432 % 2 := by
  simp only [BitVec.toNat_setWidth, BitVec.toNat_and, BitVec.toNat_ushiftRight, Nat.shiftRight_eq_div_pow]
  rw [show (0x0001 : U32).toNat = 2 ^ 1 - 1 from rfl, and_low]
  omega

theorem unpack_prio (x : U32) : (((x >>> 26) &&& 0x0007).setWidth 8 : U8).toNat = x.toNat / 67108864 % 8 := by
  simp only [BitVec.toNat_setWidth, BitVec.toNat_and, BitVec.toNat_ushiftRight, Nat.shiftRight_eq_div_pow]
  rw [show (0x0007 : U32).toNat = 2 ^ 3 - 1 from rfl, and_low]
  omega

/-- The fields of a message, taken from identifier `x`. -/
structure Fields (x : Nat) (m : Msg) : Prop where
  prio : m.prio.toNat = x / 67108864 % 8
  hard : m.hard.toNat = x / 33554432 % 2
  cls : m.cls.toNat = x / 65536 % 512
  typ : m.typ.toNat = x / 256 % 256
  oAddr : m.oAddr.toNat = x % 256

theorem Fields.same {m m' : Msg} (h : Fields (canId m) m') (hp : m.prio.toNat < 8) (hc : m.cls.toNat < 512) :
    m'.prio = m.prio ∧ m'.hard = m.hard ∧ m'.cls = m.cls ∧ m'.typ = m.typ ∧ m'.oAddr = m.oAddr := by
  have ht := m.typ.isLt
  have ho := m.oAddr.isLt
  have hh1 : m.hard.toNat < 2 := by cases m.hard <;> decide
  obtain ⟨a, b, c, d, e⟩ := h
  unfold canId at a b c d e
  refine ⟨BitVec.eq_of_toNat_eq (by omega), ?_, BitVec.eq_of_toNat_eq (by omega), BitVec.eq_of_toNat_eq (by omega), BitVec.eq_of_toNat_eq (by omega)⟩
  have : m'.hard.toNat = m.hard.toNat := by omega
  cases h1 : m.hard <;> cases h2 : m'.hard <;> simp_all

theorem Fields.canId_eq {x : Nat} {m : Msg} (h : Fields x m) (hx : x < 2 ^ 29) : canId m = x := by
  obtain ⟨a, b, c, d, e⟩ := h
  unfold canId
  omega

theorem hard_bit (x : U8) (h : x.toNat < 2) : (decide (x ≠ 0)).toNat = x.toNat := by
  have : x = 0 ∨ x = 1 := by
    rcases (by omega : x.toNat = 0 ∨ x.toNat = 1) with h | h
    · exact .inl (BitVec.eq_of_toNat_eq h)
    · exact .inr (BitVec.eq_of_toNat_eq h)
  rcases this with h | h <;> subst h <;> rfl

theorem readMessage_fields {f : Frame} {old m : Msg} (h : readMessage f old = some m) : Fields f.id.toNat m ∧ m.size = f.len := by
  unfold readMessage at h
  obtain ⟨d, -, rfl⟩ := Option.map_eq_some_iff.mp h
  refine ⟨⟨unpack_prio _, ?_, unpack_cls _, unpack_typ _, unpack_oAddr _⟩, rfl⟩
  dsimp only
  rw [hard_bit _ (by rw [unpack_hard]; omega), unpack_hard]

theorem readMessage_some (f : Frame) (old : Msg) (h : f.len.toNat ≤ 8) :
    ∃ m, readMessage f old = some m ∧ ∀ (i : Nat) (h : i < 8), i < f.len.toNat → m.data[i] = f.byte[i] := by
  unfold readMessage copy
  rw [if_pos h]
  refine ⟨_, rfl, fun i hi hl => ?_⟩
  simp [hl]

/-- **C60**: the frame of an event carries the identifier the protocol asks for; the event read from it is the same. -/
theorem C60_roundtrip (m : Msg) (stack : Vector U8 8) (old : Msg) (h : Fits m) :
    ∃ f m', writeFrame m stack = some f ∧ f.extended = true ∧ f.rtr = false ∧ f.id.toNat = canId m ∧ readMessage f old = some m' ∧ Same m m' := by
  obtain ⟨hp, hc, hs⟩ := h
  obtain ⟨m', h1, h2⟩ := readMessage_some
    ⟨packId m, m.size, true, false, Vector.ofFn fun i => if i.val < m.size.toNat then m.data[i] else stack[i]⟩ old hs
  obtain ⟨h3, h4⟩ := readMessage_fields h1
  dsimp only at h2 h3 h4
  rw [packId_toNat m hp hc] at h3
  obtain ⟨a, b, c, d, e⟩ := h3.same hp hc
  refine ⟨_, m', by rw [writeFrame, if_pos hs], rfl, rfl, packId_toNat m hp hc, h1, a, b, c, d, e, h4, fun i hi hl => ?_⟩
  rw [h2 i hi hl]
  simp [hl]

/-- **C60**: different events which fit have different identifiers, unless all fields agree; and every identifier of 29 bit is the one of the event it is read as. -/
theorem C60_onto (f : Frame) (old m : Msg) (hx : f.id.toNat < 2 ^ 29) (h : readMessage f old = some m) : packId m = f.id ∧ m.prio.toNat < 8 ∧ m.cls.toNat < 512 := by
  obtain ⟨h3, -⟩ := readMessage_fields h
  have hp : m.prio.toNat < 8 := by rw [h3.prio]; omega
  have hc : m.cls.toNat < 512 := by rw [h3.cls]; omega
  exact ⟨BitVec.eq_of_toNat_eq (by rw [packId_toNat m hp hc, h3.canId_eq hx]), hp, hc⟩

theorem toMob_id (x : U32) (hx : x.toNat < 2 ^ 29) :
    (((((x >>> 21) &&& 0xFF).setWidth 8 : U8).setWidth 32 : U32) <<< 21) + (((((x >>> 13) &&& 0xFF).setWidth 8 : U8).setWidth 32 : U32) <<< 13) +
      (((((x >>> 5) &&& 0xFF).setWidth 8 : U8).setWidth 32 : U32) <<< 5) +
      ((((((x &&& 0x1F) <<< 3).setWidth 8 : U8) >>> 3) &&& 0x1F).setWidth 32 : U32) = x := by
  apply BitVec.eq_of_toNat_eq
  simp only [BitVec.toNat_add, BitVec.toNat_setWidth, BitVec.toNat_and, BitVec.toNat_ushiftRight, BitVec.toNat_shiftLeft, Nat.shiftRight_eq_div_pow, Nat.shiftLeft_eq]
  rw [show (0xFF : U32).toNat = 2 ^ 8 - 1 from rfl, show (0x1F : U32).toNat = 2 ^ 5 - 1 from rfl, show (0x1F : U8).toNat = 2 ^ 5 - 1 from rfl]
  simp only [and_low]
  omega

theorem toMob_len (x : U8) (hx : x.toNat ≤ 8) : ((0x10 + (x &&& 0x0F)) ||| 0x40) &&& 0x0F = x ∧ ((0x10 + (x &&& 0x0F)) ||| 0x40) &&& (0x10 : U8) ≠ 0 := by
  have : ∀ x : U8, x.toNat ≤ 8 → ((0x10 + (x &&& 0x0F)) ||| 0x40) &&& 0x0F = x ∧ ((0x10 + (x &&& 0x0F)) ||| 0x40) &&& (0x10 : U8) ≠ 0 := by
    decide +kernel
  exact this x hx

theorem mob_roundtrip (f : Frame) (old : Vector U8 8) (hl : f.len.toNat ≤ 8) (hx : f.id.toNat < 2 ^ 29) :
    ∃ r f', toMob f = some r ∧ ofMob r old = some f' ∧ f'.extended = true ∧ f'.id = f.id ∧ f'.len = f.len ∧
      ∀ (i : Nat) (h : i < 8), i < f.len.toNat → f'.byte[i] = f.byte[i] := by
  obtain ⟨e1, e2⟩ := toMob_len f.len hl
  obtain ⟨r, hr⟩ : ∃ r, toMob f = some r := ⟨_, by rw [toMob, if_pos hl]⟩
  refine ⟨r, ?_⟩
  rw [hr]
  rw [toMob, if_pos hl] at hr
  cases hr
  unfold ofMob
  dsimp only
  rw [e1, if_pos hl, if_pos e2]
  refine ⟨_, rfl, rfl, ?_, toMob_id _ hx, rfl, fun i hi h => ?_⟩
  · exact decide_eq_true e2
  · simp [h, hi]

theorem readMessage_congr {f f' : Frame} (old : Msg) (h1 : f'.id = f.id) (h2 : f'.len = f.len)
    (h3 : ∀ (i : Nat) (h : i < 8), i < f.len.toNat → f'.byte[i] = f.byte[i]) : readMessage f' old = readMessage f old := by
  unfold readMessage
  rw [h1, h2]
  congr 1
  unfold copy
  by_cases h : f.len.toNat ≤ 8
  · rw [if_pos h, if_pos h]
    congr 2
    funext i
    by_cases hi : i.val < f.len.toNat
    · rw [if_pos hi, if_pos hi]; exact h3 i.val i.isLt hi
    · rw [if_neg hi, if_neg hi]
  · rw [if_neg h, if_neg h]

theorem canId_lt (m : Msg) (hp : m.prio.toNat < 8) (hc : m.cls.toNat < 512) : canId m < 2 ^ 29 := by
  have ht := m.typ.isLt
  have ho := m.oAddr.isLt
  have hh1 : m.hard.toNat < 2 := by cases m.hard <;> decide
  unfold canId; omega

/-- **C60**: an event which one node writes through the registers of its controller is the event which another node reads from its registers. -/
theorem C60_registers (m : Msg) (stack stack' : Vector U8 8) (old : Msg) (h : Fits m) :
    ∃ f r f' m', writeFrame m stack = some f ∧ toMob f = some r ∧ ofMob r stack' = some f' ∧ f'.extended = true ∧ readMessage f' old = some m' ∧ Same m m' := by
  obtain ⟨f, m', h1, -, -, h4, h5, h6⟩ := C60_roundtrip m stack old h
  obtain ⟨hp, hc, hs⟩ := h
  have hf : f.len = m.size := by
    rw [writeFrame, if_pos hs] at h1
    cases h1; rfl
  obtain ⟨r, f', g1, g2, g3, g4, g5, g6⟩ := mob_roundtrip f stack' (by rw [hf]; exact hs) (by rw [h4]; exact canId_lt m hp hc)
  exact ⟨f, r, f', m', h1, g1, g2, g3, by rw [readMessage_congr old g4 g5 g6, h5], h6⟩

/-- A message with all fields set. -/
def sample : Msg := ⟨5, 0x1A3, 0x7E, 0x9C, true, 3, #v[1, 2, 3, 4, 5, 6, 7, 8]⟩

example : Fits sample ∧ canId sample = 0x17A37E9C := by unfold Fits; decide +kernel

/-- Every message longer than 8 bytes is refused. -/
theorem C60_refused (m : Msg) (stack : Vector U8 8) (h : 8 < m.size.toNat) : writeFrame m stack = none := by
  rw [writeFrame, if_neg (by omega)]

example : 8 < ({ sample with size := 9 } : Msg).size.toNat := by decide

/-! ### C66 -/

/-- **C66** does not hold: every frame with an 11 bit identifier and at most 8 bytes becomes an event of class 0, its type is made of the upper three bits. -/
theorem C66_standard_violated (r : Mob) (stack : Vector U8 8) (old : Msg) (hs : r.cdmob &&& 0x10 = 0) (hl : (r.cdmob &&& 0x0F).toNat ≤ 8) :
    ∃ f m, ofMob r stack = some f ∧ f.extended = false ∧ readMessage f old = some m ∧ m.cls = 0 ∧ m.prio = 0 ∧ m.typ = r.idt1 >>> 5 := by
  unfold ofMob
  dsimp only
  rw [if_pos hl, if_neg (fun h => h hs)]
  have hf : ∀ f : Frame, f.len = r.cdmob &&& 0x0F → f.id = ((r.idt1.setWidth 32 : U32) <<< 3) + (((r.idt2 >>> 5) &&& 0x07).setWidth 32 : U32) →
      ∃ m, readMessage f old = some m ∧ m.cls = 0 ∧ m.prio = 0 ∧ m.typ = r.idt1 >>> 5 := by
    intro f h1 h2
    obtain ⟨m, h3, -⟩ := readMessage_some f old (by rw [h1]; exact hl)
    have h4 := (readMessage_fields h3).1
    have hid : f.id.toNat = r.idt1.toNat * 8 + r.idt2.toNat / 32 := by
      have := r.idt1.isLt
      have := r.idt2.isLt
      rw [h2]
      simp only [BitVec.toNat_add, BitVec.toNat_setWidth, BitVec.toNat_and, BitVec.toNat_ushiftRight, BitVec.toNat_shiftLeft, Nat.shiftRight_eq_div_pow, Nat.shiftLeft_eq]
      rw [show (0x07 : U8).toNat = 2 ^ 3 - 1 from rfl, and_low]
      omega
    have := r.idt1.isLt
    have := r.idt2.isLt
    rw [hid] at h4
    refine ⟨m, h3, BitVec.eq_of_toNat_eq ?_, BitVec.eq_of_toNat_eq ?_, BitVec.eq_of_toNat_eq ?_⟩
    · rw [h4.cls]; show _ = 0; omega
    · rw [h4.prio]; show _ = 0; omega
    · rw [h4.typ, BitVec.toNat_ushiftRight, Nat.shiftRight_eq_div_pow]; omega
  obtain ⟨m, h⟩ := hf ⟨_, _, _, _, _⟩ rfl rfl
  exact ⟨_, m, rfl, decide_eq_false (fun h => h hs), h⟩

/-- A frame with an 11 bit identifier: a node takes it for the heartbeat of a segment master (class 0, type 1). -/
example : (({ idt1 := 0x20, idt2 := 0, idt3 := 0, idt4 := 0, cdmob := 5, bytes := [1, 2, 3, 4, 5] } : Mob).cdmob &&& 0x10 = 0) ∧
    ((0x20 : U8) >>> 5 = 1) := by decide

/-- **C66** does not hold: the event made from a request for data (remote frame) is the one made from the frame with data. -/
theorem C66_remote_violated (f : Frame) (old : Msg) : readMessage { f with rtr := true } old = readMessage f old := rfl

/-- **C66**, partial: extended data frames of at most 8 bytes are delivered with the fields their identifier asks for.  Missing: other frames are not rejected. -/
theorem C66_partial (f : Frame) (old : Msg) (hl : f.len.toNat ≤ 8) (hx : f.id.toNat < 2 ^ 29) :
    ∃ m, readMessage f old = some m ∧ canId m = f.id.toNat ∧ m.size = f.len ∧ ∀ (i : Nat) (h : i < 8), i < f.len.toNat → m.data[i] = f.byte[i] := by
  obtain ⟨m, h1, h2⟩ := readMessage_some f old hl
  obtain ⟨h3, h4⟩ := readMessage_fields h1
  exact ⟨m, h1, h3.canId_eq hx, h4, h2⟩

example : (0x17A37E9C : U32).toNat < 2 ^ 29 := by decide

/-! ### C67 -/

/-- **C67**, partial: a frame whose length code is at most 8 is read without access outside of the storage.  Missing: length codes 9 - 15. -/
theorem C67_partial (r : Mob) (stack : Vector U8 8) (old : Msg) (hl : (r.cdmob &&& 0x0F).toNat ≤ 8) :
    ∃ f m, ofMob r stack = some f ∧ readMessage f old = some m ∧ m.size.toNat ≤ 8 := by
  unfold ofMob
  dsimp only
  rw [if_pos hl]
  have hf : ∀ f : Frame, f.len = r.cdmob &&& 0x0F → ∃ m, readMessage f old = some m ∧ m.size.toNat ≤ 8 := by
    intro f h1
    obtain ⟨m, h3, -⟩ := readMessage_some f old (by rw [h1]; exact hl)
    exact ⟨m, h3, by rw [(readMessage_fields h3).2, h1]; exact hl⟩
  obtain ⟨m, h1, h2⟩ := hf ⟨_, _, _, _, _⟩ rfl
  exact ⟨_, m, rfl, h1, h2⟩

example : ((0x58 : U8) &&& 0x0F).toNat ≤ 8 := by decide

/-- **C67** does not hold: for every frame with a length code of 9 - 15 bytes are written behind the storage of the caller. -/
theorem C67_violated (r : Mob) (stack : Vector U8 8) (hl : 8 < (r.cdmob &&& 0x0F).toNat) : ofMob r stack = none := by
  unfold ofMob
  dsimp only
  rw [if_neg (by omega)]

example : 8 < ((0x1F : U8) &&& 0x0F).toNat := by decide

/-! ### C68 -/

/-- **C68**: a message is handed over to the controller at least once and at most three times; the result is success if and only if one of these attempts succeeded, which is
the last one: no message is sent again after success. -/
theorem C68_attempts (ok : Nat → Bool) :
    let r := sendLoop ok 0
    1 ≤ r.1 ∧ r.1 ≤ 3 ∧ (∀ k, k + 1 < r.1 → ok k = false) ∧ r.2 = ok (r.1 - 1) ∧ (r.2 = true ↔ ∃ k, k < 3 ∧ ok k = true) := by
  intro r
  have hr : r = if ok 0 then (1, true) else if ok 1 then (2, true) else if ok 2 then (3, true) else (3, false) := by
    show sendLoop ok 0 = _
    rw [sendLoop]
    simp only [Nat.zero_add, Nat.reduceLT, dite_true]
    rw [sendLoop]
    simp only [Nat.reduceAdd, Nat.reduceLT, dite_true]
    rw [sendLoop]
    simp only [Nat.reduceAdd, Nat.lt_irrefl, dite_false]
  have h3 : ∀ k, k < 3 → k = 0 ∨ k = 1 ∨ k = 2 := by omega
  rw [hr]
  cases h0 : ok 0 <;> cases h1 : ok 1 <;> cases h2 : ok 2 <;> simp <;>
    refine ⟨?_, ?_⟩ <;> grind

example : sendLoop (fun k => k == 1) 0 = (2, true) := by
  simp [sendLoop]

/-! ### C69, C70: adapter for the FlexCAN controller -/

/-- **C69**, partial: an event without data arrives.  Missing: all events with data. -/
theorem C69_partial (m old : Msg) (h : Fits m) (h0 : m.size = 0) : ∃ f m', flexWrite m = some f ∧ flexRead f old = some m' ∧ Same m m' := by
  obtain ⟨hp, hc, -⟩ := h
  have hid : (packId m &&& 0x1FFFFFFF).toNat = canId m := by
    rw [BitVec.toNat_and, packId_toNat m hp hc, show (0x1FFFFFFF : U32).toNat = 2 ^ 29 - 1 from rfl, and_low]
    exact Nat.mod_eq_of_lt (canId_lt m hp hc)
  obtain ⟨f, hr⟩ : ∃ f, flexWrite m = some f := ⟨_, by rw [flexWrite, h0, flexPack, dif_neg (by decide)]⟩
  refine ⟨f, ?_⟩
  rw [hr]
  rw [flexWrite, h0, flexPack, dif_neg (by decide)] at hr
  cases hr
  unfold flexRead
  rw [flexUnpack]
  dsimp only
  rw [dif_neg (by decide)]
  refine ⟨_, rfl, rfl, ?_⟩
  have hf : Fields (canId m) ⟨(((packId m &&& 0x1FFFFFFF) >>> 26) &&& 0x0007).setWidth 8, (((packId m &&& 0x1FFFFFFF) >>> 16) &&& 0x01FF).setWidth 16,
      (((packId m &&& 0x1FFFFFFF) >>> 8) &&& 0x00FF).setWidth 8, ((packId m &&& 0x1FFFFFFF) &&& 0x00FF).setWidth 8,
      ((((packId m &&& 0x1FFFFFFF) >>> 25) &&& 0x0001).setWidth 8 : U8) ≠ 0, 0, old.data⟩ := by
    rw [← hid]
    refine ⟨unpack_prio _, ?_, unpack_cls _, unpack_typ _, unpack_oAddr _⟩
    dsimp only
    rw [hard_bit _ (by rw [unpack_hard]; omega), unpack_hard]
  obtain ⟨a, b, c, d, e⟩ := hf.same hp hc
  exact ⟨a, b, c, d, e, h0.symm, fun i hi hl => by rw [h0] at hl; exact absurd hl (Nat.not_lt_zero _)⟩

example : Fits { sample with size := 0 } := by unfold Fits; decide

/-- **C69** does not hold: for every event with at least one byte of data the conversion is undefined (shift by more than the width). -/
theorem C69_write_violated (m : Msg) (h0 : m.size ≠ 0) : flexWrite m = none := by
  have : 0 < m.size.toNat := by
    rcases Nat.eq_zero_or_pos m.size.toNat with h | h
    · exact absurd (BitVec.eq_of_toNat_eq h) h0
    · exact h
  unfold flexWrite
  rw [flexPack, dif_pos this, dif_pos (by omega), if_neg (by omega), shl, if_neg (by omega)]

/-- **C69** does not hold: the same for every received frame with at least one byte of data. -/
theorem C69_read_violated (f : FlexFrame) (old : Msg) (h0 : f.length ≠ 0) : flexRead f old = none := by
  have : 0 < f.length.toNat := by
    rcases Nat.eq_zero_or_pos f.length.toNat with h | h
    · exact absurd (BitVec.eq_of_toNat_eq h) h0
    · exact h
  unfold flexRead
  rw [flexUnpack, dif_pos this, dif_pos (by omega), if_neg (by omega), shr, if_neg (by omega)]
  rfl

example : sample.size ≠ 0 := by decide

theorem poll_eq (full : Nat → Bool) (k : Nat) (h : k < 15) : poll full k = if full k then (some k, k) else (none, (k + 1) % 15) := by
  unfold poll
  rw [show (256 : Nat) = 255 + 1 from rfl, pollLoop]
  by_cases hk : full k = true
  · simp only [hk, if_true]
    rw [Nat.mod_eq_of_lt h]
  · have h1 : ¬ 15 < k + 1 := by omega
    simp only [hk, h1, if_false]
    rfl

/-- `n` polls, while the contents of the buffers stay: the buffers read so far, and the position. -/
def polls (full : Nat → Bool) : Nat → Nat → Nat
  | 0, k => k
  | n + 1, k => (poll full (polls full n k)).2

/-- **C70**: only receive buffers are accessed: the position stays in range. -/
theorem C70_range (full : Nat → Bool) (k : Nat) (h : k < 15) : (poll full k).2 < 15 ∧ ∀ j, (poll full k).1 = some j → j < 15 ∧ full j = true := by
  rw [poll_eq full k h]
  by_cases hk : full k = true
  · simp only [hk, if_true]
    exact ⟨h, fun j hj => by cases hj; exact ⟨h, hk⟩⟩
  · rw [if_neg hk]
    exact ⟨Nat.mod_lt _ (by omega), fun j hj => by cases hj⟩

theorem polls_lt (full : Nat → Bool) (k : Nat) (h : k < 15) (n : Nat) : polls full n k < 15 := by
  induction n with
  | zero => exact h
  | succ n ih => exact (C70_range full _ ih).1

/-- **C70**, partial: if a buffer holds a frame, one of 15 consecutive calls reads a frame.  Missing: the next call does. -/
theorem C70_eventually_partial (full : Nat → Bool) (k j : Nat) (hk : k < 15) (hj : j < 15) (hf : full j = true) :
    ∃ n, n < 15 ∧ (poll full (polls full n k)).1.isSome := by
  refine Classical.byContradiction fun hn => ?_
  have hno : ∀ n, n < 15 → full (polls full n k) = false := by
    intro n h
    have h1 := polls_lt full k hk n
    cases hx : full (polls full n k) with
    | false => rfl
    | true => exact absurd ⟨n, h, by rw [poll_eq full _ h1, hx]; rfl⟩ hn
  have hpos : ∀ n, n ≤ 15 → polls full n k = (k + n) % 15 := by
    intro n
    induction n with
    | zero => intro _; show k = _; omega
    | succ n ih =>
      intro h
      rw [polls, poll_eq full _ (polls_lt full k hk n), hno n (by omega), ih (by omega)]
      show (_ % 15 + 1) % 15 = _
      omega
  have h1 := hno ((j + 15 - k) % 15) (by omega)
  rw [hpos _ (by omega), show (k + (j + 15 - k) % 15) % 15 = j by omega, hf] at h1
  cases h1

/-- **C70** does not hold: for every position there are pending frames which the next call does not read. -/
theorem C70_next_violated (k : Nat) (hk : k < 15) : ∃ full : Nat → Bool, (∃ j, j < 15 ∧ full j = true) ∧ (poll full k).1 = none := by
  refine ⟨fun j => j == (k + 1) % 15, ⟨(k + 1) % 15, Nat.mod_lt _ (by omega), by simp⟩, ?_⟩
  have : ((k == (k + 1) % 15) = true) = False := by simp; omega
  rw [poll_eq _ k hk]
  simp [this]

example : poll (fun j => j == 3) 2 = (none, 3) ∧ poll (fun j => j == 3) 3 = (some 3, 3) := by decide

end Vscp.CanProps
