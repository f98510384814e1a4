/-
C62, C63: the send functions of src/events.
-/
import Verif.Lemmas.Events
import Verif.Props.DataCoding
import Verif.Props.Safety

namespace Vscp.EvtProps
open Vscp.Events Vscp.Spec.Evt Vscp.Evt

/-- The functions with an index, a unit and a normalized integer. -/
def isMeasurement (f : Fn) : Bool := decide (f.sig = [.u8, .u8, .i32, .i8]) && decide (f.body = [.size 1, .format 0 1 0, .norm 1 2 3])

/-- The functions with index, zone, sub-zone and a normalized integer. -/
def isZoned (f : Fn) : Bool :=
  decide (f.sig = [.u8, .u8, .u8, .i32, .i8]) && decide (f.body = [.size 3, .byte 0 0 0, .byte 1 1 0, .byte 2 2 0, .norm 3 3 4])

/-- Class and type of the seven functions which do not do what their declarations promise: control_sendBigChangeLevel, information_sendPreSetActive,
information_sendDatetime, protocol_sendDropNicknameIdResetDevice, protocol_sendReadWritePageResponse, protocol_sendHighEndServerServiceResponse,
protocol_sendGetEventInterestResponse. -/
def defective : List (Nat × Nat) := [(30, 33), (20, 48), (20, 77), (0, 8), (0, 26), (0, 28), (0, 41)]

theorem kinds : functions.all (fun f => (regular f || isMeasurement f || isZoned f || defective.contains (f.cls, f.typ)) && decide (f.cls < 65536 ∧ f.typ < 256)) = true := by
  decide +kernel

theorem kinds_of {f : Fn} (hf : f ∈ functions) (hd : (f.cls, f.typ) ∉ defective) :
    (regular f = true ∨ isMeasurement f = true ∨ isZoned f = true) ∧ f.cls < 65536 ∧ f.typ < 256 := by
  have h := List.all_eq_true.mp kinds f hf
  simp only [Bool.and_eq_true, Bool.or_eq_true, decide_eq_true_eq, List.contains_iff_mem] at h
  grind

/-! ### C62 -/

/-- **C62**: the functions of a module send the class of the module, only types declared for it, and no two functions of a module send the same type. -/
theorem C62_types : Table.modules.length = classes.length ∧ ∀ x ∈ Table.modules.zip classes, x.1.1 = x.2.1 ∧ (∀ f ∈ x.1.2, f.cls = x.2.2.1 ∧ f.typ ∈ x.2.2.2) ∧
    (x.1.2.map (·.typ)).Nodup := by
  decide +kernel

example : functions.length = 889 := by decide +kernel

theorem send_ok (c : Ctx) (p : Plat) (f : Fn) (a : Args) (stack : Vector U8 8) (w : W) (d : Vector U8 8) (s : U8) (l : List U8)
    (hc : f.cls < 65536) (ht : f.typ < 256) (h : exec p a f.body stack 0 = .ok d s) (hs : s.toNat = l.length) (hl : l.length ≤ 8) (hd : head d s.toNat = l) :
    ∃ m, IsEvent c w f l m ∧ Transmits c w (send c p f a stack w) m := by
  refine ⟨⟨3, BitVec.ofNat 16 f.cls, BitVec.ofNat 8 f.typ, w.v.nick, c.hardCoded, s, d⟩,
    ⟨?_, ?_, rfl, rfl, rfl, hs, hl, hd⟩, ?_⟩
  · rw [BitVec.toNat_ofNat]; exact Nat.mod_eq_of_lt hc
  · rw [BitVec.toNat_ofNat]; exact Nat.mod_eq_of_lt ht
  · have : send c p f a stack w = ((fun (x : Bool) => some x) (Transport.writeMessage c ⟨3, BitVec.ofNat 16 f.cls, BitVec.ofNat 8 f.typ, w.v.nick, c.hardCoded, s, d⟩ w).1,
        (Transport.writeMessage c ⟨3, BitVec.ofNat 16 f.cls, BitVec.ofNat 8 f.typ, w.v.nick, c.hardCoded, s, d⟩ w).2) := by
      unfold send
      rw [h]
      rfl
    rw [this, Transport.writeMessage_run, if_neg (fun h => h.2 (by rw [hs]; exact hl))]
    refine ⟨rfl, ?_⟩
    rw [Transport.countErr_eq]

/-- **C63** and **C62** for the functions with scalars, optional values and byte arrays. -/
theorem send_regular (c : Ctx) (p : Plat) (hp : Ieee p) (f : Fn) (hr : regular f = true) (hc : f.cls < 65536) (ht : f.typ < 256) (a : Args) (stack : Vector U8 8) (w : W) :
    (missing a 0 f.sig = true → send c p f a stack w = (some false, w)) ∧
    (missing a 0 f.sig = false → ∃ m, IsEvent c w f ((params a 0 f.sig).take 8) m ∧ Transmits c w (send c p f a stack w) m) := by
  simp only [regular, Bool.and_eq_true, decide_eq_true_eq] at hr
  have hx := exec_needs p a (gen 0 0 f.sig) stack 0 f.sig 0
  rw [← hr.2] at hx
  constructor
  · intro hm
    rw [if_pos hm] at hx
    unfold send
    rw [hx]
    rfl
  · intro hm
    rw [if_neg (by rw [hm]; decide)] at hx
    obtain ⟨d, s, h1, h2, h3⟩ := exec_gen p hp a f.sig 0 0 stack 0 hr.1 rfl (by omega) hm
    rw [Nat.zero_add] at h2
    have hlen : s.toNat = ((params a 0 f.sig).take 8).length := by rw [h2, List.length_take]
    refine send_ok c p f a stack w d s _ hc ht (hx.trans h1) hlen (by rw [List.length_take]; omega) ?_
    rw [h3]
    simp [head]

theorem head_norm (d : Vector U8 8) (m : List U8) (k j : Nat) (h8 : k + j ≤ 8) (hm : j ≤ m.length) :
    head (Vector.ofFn fun i : Fin 8 => if i.val < k then d[i] else m.getD (i.val - k) 0) (k + j) = head d k ++ m.take j := by
  apply List.ext_getElem?
  intro i
  unfold head
  rw [List.getElem?_take]
  by_cases hi : i < k + j
  · rw [if_pos hi, Vector.getElem?_toList, Vector.getElem?_eq_getElem (by omega), Vector.getElem_ofFn]
    by_cases hk : i < k
    · rw [if_pos hk, List.getElem?_append_left (by simp; omega), List.getElem?_take, if_pos hk]
      simp [Vector.getElem?_toList, Vector.getElem?_eq_getElem (show i < 8 by omega)]
    · dsimp only
      rw [if_neg hk, List.getElem?_append_right (by simp; omega), List.getElem?_take]
      have hl : (d.toList.take k).length = k := by simp; omega
      rw [hl, if_pos (by omega), List.getD_eq_getElem?_getD, List.getElem?_eq_getElem (by omega)]
      rfl
  · rw [if_neg hi, List.getElem?_eq_none]
    simp; omega

/-- The bytes of a normalized integer with value `x` and exponent `e`: sign and magnitude of the exponent, the value in two's complement in the least number of bytes. -/
structure IsNormalized (x e : Int) (l : List U8) : Prop where
  shape : ∃ b bs, l = b :: bs ∧ Spec.exponentOf b = e ∧ Spec.beInt bs = x
  short : 2 ≤ l.length ∧ l.length ≤ 5
  least : ∀ n, 1 ≤ n → n + 1 < l.length → ¬ Spec.fitsIn x n

theorem exec_norm (p : Plat) (a : Args) (k x e : Nat) (d : Vector U8 8) (s : U8) (hs : s.toNat = k) (hk : k ≤ 3)
    (hmin : (BitVec.ofNat 32 (a.num x)).toInt ≠ -2 ^ 31) (hexp : (BitVec.ofNat 8 (a.num e)).toInt ≠ -128) :
    ∃ d' s' l, exec p a [.norm k x e] d s = .ok d' s' ∧ IsNormalized (BitVec.ofNat 32 (a.num x)).toInt (BitVec.ofNat 8 (a.num e)).toInt l ∧
      s'.toNat = k + l.length ∧ head d' s'.toNat = head d k ++ l := by
  obtain ⟨n, hn1, hn4, hfit, hleast⟩ := DataCoding.C02_size_exists (BitVec.ofNat 32 (a.num x)) hmin
  have hsz : (8 - s : U8).toNat = 8 - k := by
    rw [BitVec.toNat_sub, hs]
    show (256 - k + 8) % 256 = _
    omega
  obtain ⟨b, bs, hlen, henc, h1, h2⟩ := DataCoding.C02_encode_exact (BitVec.ofNat 32 (a.num x)) (BitVec.ofNat 8 (a.num e)) (d.toList.drop k) (8 - s) n hmin hexp hn1
    hfit hleast (by omega) (by rw [hsz]; simp)
  have hs' : (s + BitVec.ofNat 8 (1 + n)).toNat = k + (1 + n) := by
    rw [BitVec.toNat_add, BitVec.toNat_ofNat, hs]; omega
  refine ⟨_, _, b :: bs, by rw [exec, henc]; dsimp only; rw [exec], ⟨⟨b, bs, rfl, h1, h2⟩, by simp; omega, ?_⟩, by rw [hs']; simp; omega, ?_⟩
  · intro m hm1 hm2
    exact hleast m hm1 (by simp at hm2; omega)
  · rw [hs', head_norm _ _ _ _ (by omega) (by simp; omega)]
    rw [List.take_append_of_le_length (by simp; omega), List.take_of_length_le (by simp; omega)]

/-- **C62**, **C63** for the functions with an index, a unit and a normalized integer: the first byte has representation 4, the lower two bits of the unit and the lower
three bits of the index, behind it the value. -/
theorem C63_measurement (c : Ctx) (p : Plat) (f : Fn) (hf : f ∈ functions) (hm : isMeasurement f = true) (a : Args) (stack : Vector U8 8) (w : W)
    (hmin : (BitVec.ofNat 32 (a.num 2)).toInt ≠ -2 ^ 31) (hexp : (BitVec.ofNat 8 (a.num 3)).toInt ≠ -128) :
    ∃ fb l m, IsEvent c w f (fb :: l) m ∧ Transmits c w (send c p f a stack w) m ∧
      fb.toNat / 32 = 4 ∧ fb.toNat / 8 % 4 = a.num 1 % 4 ∧ fb.toNat % 8 = a.num 0 % 8 ∧
      IsNormalized (BitVec.ofNat 32 (a.num 2)).toInt (BitVec.ofNat 8 (a.num 3)).toInt l := by
  have hb : f.cls < 65536 ∧ f.typ < 256 := by
    have h := List.all_eq_true.mp kinds f hf
    simp only [Bool.and_eq_true, decide_eq_true_eq] at h
    exact h.2
  simp only [isMeasurement, Bool.and_eq_true, decide_eq_true_eq] at hm
  let fb := DataCoding.getFormatByte 4 (BitVec.ofNat 8 (a.num 1)) (BitVec.ofNat 8 (a.num 0))
  obtain ⟨d1, e1, h1⟩ := put_head stack 0 (by omega) fb
  obtain ⟨d2, s2, l, e2, h2, h3, h4⟩ := exec_norm p a 1 2 3 d1 (0 + BitVec.ofNat 8 1) rfl (by omega) hmin hexp
  have hx : exec p a f.body stack 0 = .ok d2 s2 := by
    rw [hm.2, exec, exec]
    show (match put stack 0 fb with | none => Res.ub | some data => exec p a [.norm 1 2 3] data (0 + BitVec.ofNat 8 1)) = _
    rw [e1]
    exact e2
  have hl := h2.short
  rw [show (1 : Nat) = 0 + 1 from rfl, h1] at h4
  obtain ⟨m, hm1, hm2⟩ := send_ok c p f a stack w d2 s2 (fb :: l) hb.1 hb.2 hx (by rw [h3]; simp; omega) (by simp; omega) (by rw [h4]; simp [head])
  have hfb : fb.toNat / 32 = 4 ∧ fb.toNat / 8 % 4 = a.num 1 % 4 ∧ fb.toNat % 8 = a.num 0 % 8 := by
    have e := DataCoding.C01_format_byte_masked 4 (BitVec.ofNat 8 (a.num 1)) (BitVec.ofNat 8 (a.num 0))
    have g := DataCoding.C01_format_byte_fields 4 (BitVec.ofNat 8 ((BitVec.ofNat 8 (a.num 1)).toNat % 4)) (BitVec.ofNat 8 ((BitVec.ofNat 8 (a.num 0)).toNat % 8))
      (by decide) (by simp only [BitVec.toNat_ofNat]; omega) (by simp only [BitVec.toNat_ofNat]; omega)
    have e4 : (BitVec.ofNat 8 ((4 : U8).toNat % 8)) = (4 : U8) := by decide
    rw [e4] at e
    rw [← e] at g
    simp only [BitVec.toNat_ofNat] at g
    refine ⟨g.1, ?_, ?_⟩
    · rw [g.2.1]; omega
    · rw [g.2.2]; omega
  exact ⟨fb, l, m, hm1, hm2, hfb.1, hfb.2.1, hfb.2.2, h2⟩

/-- **C62**, **C63** for the functions with index, zone, sub-zone and a normalized integer. -/
theorem C63_zoned (c : Ctx) (p : Plat) (f : Fn) (hf : f ∈ functions) (hm : isZoned f = true) (a : Args) (stack : Vector U8 8) (w : W)
    (hmin : (BitVec.ofNat 32 (a.num 3)).toInt ≠ -2 ^ 31) (hexp : (BitVec.ofNat 8 (a.num 4)).toInt ≠ -128) :
    ∃ l m, IsEvent c w f (be 1 (a.num 0) ++ be 1 (a.num 1) ++ be 1 (a.num 2) ++ l) m ∧ Transmits c w (send c p f a stack w) m ∧
      IsNormalized (BitVec.ofNat 32 (a.num 3)).toInt (BitVec.ofNat 8 (a.num 4)).toInt l := by
  have hb : f.cls < 65536 ∧ f.typ < 256 := by
    have h := List.all_eq_true.mp kinds f hf
    simp only [Bool.and_eq_true, decide_eq_true_eq] at h
    exact h.2
  simp only [isZoned, Bool.and_eq_true, decide_eq_true_eq] at hm
  obtain ⟨d1, e1, h1⟩ := exec_byte p a 0 0 0 [.byte 1 1 0, .byte 2 2 0, .norm 3 3 4] stack (0 + BitVec.ofNat 8 3) (by omega)
  obtain ⟨d2, e2, h2⟩ := exec_byte p a 1 1 0 [.byte 2 2 0, .norm 3 3 4] d1 (0 + BitVec.ofNat 8 3) (by omega)
  obtain ⟨d3, e3, h3⟩ := exec_byte p a 2 2 0 [.norm 3 3 4] d2 (0 + BitVec.ofNat 8 3) (by omega)
  obtain ⟨d4, s4, l, e4, h4, h5, h6⟩ := exec_norm p a 3 3 4 d3 (0 + BitVec.ofNat 8 3) rfl (by omega) hmin hexp
  have hx : exec p a f.body stack 0 = .ok d4 s4 := by
    rw [hm.2, exec, e1, e2, e3, e4]
  have hl := h4.short
  have hd : head d4 s4.toNat = be 1 (a.num 0) ++ be 1 (a.num 1) ++ be 1 (a.num 2) ++ l := by
    rw [h6, show head d3 3 = head d3 (2 + 1) from rfl, h3, show head d2 2 = head d2 (1 + 1) from rfl, h2, show head d1 1 = head d1 (0 + 1) from rfl, h1]
    simp [be, head]
  obtain ⟨m, hm1, hm2⟩ := send_ok c p f a stack w d4 s4 _ hb.1 hb.2 hx (by rw [h5]; simp [be]; omega) (by simp [be]; omega) hd
  exact ⟨l, m, hm1, hm2, h4⟩

/-! ### The seven defective functions -/

/-- src/events/vscp_evt_control.c:1049-1070 -/
def bigChangeLevel : Fn :=
  ⟨"control_sendBigChangeLevel", 30, 33, [.u8, .u8, .u8, .i32], [.byte 0 0 0, .size 1, .byte 1 1 0, .size 1, .byte 2 2 0, .size 1]⟩

/-- src/events/vscp_evt_information.c:1631-1653 -/
def preSetActive : Fn :=
  ⟨"information_sendPreSetActive", 20, 48, [.u8, .u8, .u8, .u8], [.byte 0 0 0, .size 1, .byte 1 1 0, .size 1, .byte 2 2 0, .size 1, .byte 2 3 0, .size 1]⟩

/-- src/events/vscp_evt_information.c:2563-2599 -/
def datetime : Fn :=
  ⟨"information_sendDatetime", 20, 77, [.u8, .u8, .u8, .arr, .len], [.need 3 4, .byte 0 0 0, .size 1, .byte 1 1 0, .size 1, .byte 2 2 0, .size 1, .loop 2 3 4]⟩

/-- src/events/vscp_evt_protocol.c:219-244 -/
def dropNickname : Fn :=
  ⟨"protocol_sendDropNicknameIdResetDevice", 0, 8, [.u8, .opt8, .opt8], [.byte 0 0 0, .size 1, .opt 1 [(1, 0)] 1, .opt 2 [(2, 0)] 1]⟩

/-- src/events/vscp_evt_protocol.c:751-781 -/
def pageResponse : Fn :=
  ⟨"protocol_sendReadWritePageResponse", 0, 26, [.u8, .arr, .len], [.need 1 2, .byte 0 0 0, .size 1, .loop 2 1 2]⟩

/-- src/events/vscp_evt_protocol.c:809-844 -/
def serviceResponse : Fn :=
  ⟨"protocol_sendHighEndServerServiceResponse", 0, 28, [.u16, .arr, .len, .u16],
    [.need 1 2, .byte 0 0 8, .byte 1 0 0, .size 2, .loop 2 1 2, .byte 6 3 8, .byte 7 3 0, .size 2]⟩

/-- src/events/vscp_evt_protocol.c:1228-1303 -/
def interestResponse : Fn :=
  ⟨"protocol_sendGetEventInterestResponse", 0, 41, [.u8, .u16, .u8, .arr, .len, .u8, .arr, .len, .u8, .arr, .len],
    [.need 3 4, .need 6 7, .need 9 10, .byte 0 0 0, .size 1, .byte 1 1 8, .byte 2 1 0, .size 2, .byte 2 2 0, .size 1, .loop 3 3 4, .byte 4 5 0, .size 1, .loop 5 6 7,
      .byte 6 8 0, .size 1, .loop 7 9 10]⟩

/-- They are in the table, and they are the only ones with these classes and types. -/
theorem defective_functions : functions.filter (fun f => defective.contains (f.cls, f.typ)) =
    [bigChangeLevel, preSetActive, datetime, dropNickname, pageResponse, serviceResponse, interestResponse] := by
  decide +kernel

theorem mem_defective {f : Fn} (h : f ∈ [bigChangeLevel, preSetActive, datetime, dropNickname, pageResponse, serviceResponse, interestResponse]) : f ∈ functions := by
  rw [← defective_functions] at h
  exact (List.mem_filter.mp h).1

/-- Class and type of the functions which may send a malformed frame or write behind the message. -/
def malformed : List (Nat × Nat) := [(0, 26), (0, 28), (0, 41)]

/-- The size after the copy loop, started with less than 8 bytes. -/
theorem copy_size (src : Nat → U8) (n off : Nat) : ∀ (k i : Nat) (d : Vector U8 8) (s : U8), k = n - i → off + i ≤ s.toNat → s.toNat < 8 →
    ∃ d' s', copyLoop src n off i d s = some (d', s') ∧ s'.toNat = min 8 (s.toNat + (n - i)) := by
  intro k
  induction k with
  | zero =>
    intro i d s hk ho hs
    rw [copyLoop, dif_neg (by omega)]
    exact ⟨d, s, rfl, by omega⟩
  | succ k ih =>
    intro i d s hk ho hs
    have h1 : (s + 1).toNat = s.toNat + 1 := by
      rw [BitVec.toNat_add]
      show (s.toNat + 1) % 256 = _
      omega
    rw [copyLoop, dif_pos (by omega), put, dif_pos (by omega)]
    dsimp only
    by_cases h8 : 8 ≤ (s + 1).toNat
    · rw [if_pos h8]
      exact ⟨_, _, rfl, by omega⟩
    · rw [if_neg h8]
      obtain ⟨d', s', e, h⟩ := ih (i + 1) (d.set (off + i) (src i)) (s + 1) (by omega) (by omega) (by omega)
      exact ⟨d', s', e, by omega⟩

/-- The arguments can be represented: a normalized integer needs a value other than the smallest one, and an exponent other than -128. -/
def Representable (f : Fn) (a : Args) : Prop :=
  (isMeasurement f = true → (BitVec.ofNat 32 (a.num 2)).toInt ≠ -2 ^ 31 ∧ (BitVec.ofNat 8 (a.num 3)).toInt ≠ -128) ∧
  (isZoned f = true → (BitVec.ofNat 32 (a.num 3)).toInt ≠ -2 ^ 31 ∧ (BitVec.ofNat 8 (a.num 4)).toInt ≠ -128)

theorem frame_of_exec (c : Ctx) (p : Plat) (f : Fn) (a : Args) (stack : Vector U8 8) (w : W) (hc : f.cls < 65536) (ht : f.typ < 256) (d : Vector U8 8) (s : U8)
    (h : exec p a f.body stack 0 = .ok d s) (hs : s.toNat ≤ 8) : ∃ l m, IsEvent c w f l m ∧ Transmits c w (send c p f a stack w) m := by
  obtain ⟨m, h1, h2⟩ := send_ok c p f a stack w d s (head d s.toNat) hc ht h (head_len _ _ hs).symm (by rw [head_len _ _ hs]; exact hs) rfl
  exact ⟨_, m, h1, h2⟩

/-- **C62** (all functions but three): without a mandatory byte array nothing is sent and nothing changes; otherwise exactly one frame is sent, with class and type of the
event, normal priority, the nickname of the node and at most 8 data bytes, and the result is the one of the transmission. -/
theorem C62_frame_partial (c : Ctx) (p : Plat) (hp : Ieee p) (f : Fn) (hf : f ∈ functions) (hm : (f.cls, f.typ) ∉ malformed) (a : Args) (hr : Representable f a)
    (stack : Vector U8 8) (w : W) :
    (missing a 0 f.sig = true → send c p f a stack w = (some false, w)) ∧
    (missing a 0 f.sig = false → ∃ l m, IsEvent c w f l m ∧ Transmits c w (send c p f a stack w) m) := by
  by_cases hd : (f.cls, f.typ) ∈ defective
  · have hf' : f ∈ [bigChangeLevel, preSetActive, datetime, dropNickname, pageResponse, serviceResponse, interestResponse] := by
      rw [← defective_functions]
      exact List.mem_filter.mpr ⟨hf, List.contains_iff_mem.mpr hd⟩
    simp only [List.mem_cons, List.not_mem_nil, or_false] at hf'
    rcases hf' with rfl | rfl | rfl | rfl | rfl | rfl | rfl
    · refine ⟨fun h => by simp [bigChangeLevel, missing] at h, fun _ => ?_⟩
      exact frame_of_exec c p _ a stack w (by decide) (by decide) _ 3 rfl (by decide)
    · refine ⟨fun h => by simp [preSetActive, missing] at h, fun _ => ?_⟩
      exact frame_of_exec c p _ a stack w (by decide) (by decide) _ 4 rfl (by decide)
    · have hx := exec_needs p a [.byte 0 0 0, .size 1, .byte 1 1 0, .size 1, .byte 2 2 0, .size 1, .loop 2 3 4] stack 0 datetime.sig 0
      rw [show needs 0 datetime.sig ++ [.byte 0 0 0, .size 1, .byte 1 1 0, .size 1, .byte 2 2 0, .size 1, .loop 2 3 4] = datetime.body from rfl] at hx
      constructor
      · intro h
        rw [if_pos h] at hx
        unfold send
        rw [hx]
        rfl
      · intro h
        rw [if_neg (by rw [h]; decide)] at hx
        obtain ⟨d', s', e, hs⟩ := copy_size (a.arr 3) (a.num 4 % 256) 2 _ 0
          (((stack.set 0 (BitVec.ofNat 8 (a.num 0 >>> 0))).set 1 (BitVec.ofNat 8 (a.num 1 >>> 0))).set 2 (BitVec.ofNat 8 (a.num 2 >>> 0))) 3 rfl (by decide) (by decide)
        refine frame_of_exec c p _ a stack w (by decide) (by decide) d' s' (hx.trans ?_) (by omega)
        show (match copyLoop (a.arr 3) (a.num 4 % 256) 2 0
          (((stack.set 0 (BitVec.ofNat 8 (a.num 0 >>> 0))).set 1 (BitVec.ofNat 8 (a.num 1 >>> 0))).set 2 (BitVec.ofNat 8 (a.num 2 >>> 0))) 3 with
          | none => Res.ub | some (data, size) => exec p a [] data size) = _
        rw [e]
        rfl
    · refine ⟨fun h => by simp [dropNickname, missing] at h, fun _ => ?_⟩
      have hx : ∃ d s, exec p a dropNickname.body stack 0 = .ok d s ∧ s.toNat ≤ 8 := by
        cases h1 : a.null 1 <;> cases h2 : a.null 2 <;>
          simp only [dropNickname, exec, h1, h2, put, putAll] <;> exact ⟨_, _, rfl, by decide⟩
      obtain ⟨d, s, e, hs⟩ := hx
      exact frame_of_exec c p _ a stack w (by decide) (by decide) d s e hs
    all_goals exact absurd hm (by decide)
  · obtain ⟨hk, hc, ht⟩ := kinds_of hf hd
    rcases hk with hk | hk | hk
    · obtain ⟨h1, h2⟩ := send_regular c p hp f hk hc ht a stack w
      exact ⟨h1, fun h => ⟨_, h2 h⟩⟩
    · have hsig : f.sig = [.u8, .u8, .i32, .i8] := by
        simp only [isMeasurement, Bool.and_eq_true, decide_eq_true_eq] at hk
        exact hk.1
      refine ⟨fun h => by simp [hsig, missing] at h, fun _ => ?_⟩
      obtain ⟨fb, l, m, h1, h2, -⟩ := C63_measurement c p f hf hk a stack w (hr.1 hk).1 (hr.1 hk).2
      exact ⟨_, m, h1, h2⟩
    · have hsig : f.sig = [.u8, .u8, .u8, .i32, .i8] := by
        simp only [isZoned, Bool.and_eq_true, decide_eq_true_eq] at hk
        exact hk.1
      refine ⟨fun h => by simp [hsig, missing] at h, fun _ => ?_⟩
      obtain ⟨l, m, h1, h2, -⟩ := C63_zoned c p f hf hk a stack w (hr.2 hk).1 (hr.2 hk).2
      exact ⟨_, m, h1, h2⟩

/-! ### C63 -/

theorem be_length : ∀ n v, (be n v).length = n := by
  intro n v
  induction n with
  | zero => rfl
  | succ n ih => rw [be, List.length_cons, ih]

theorem value_be : ∀ n v, value (be n v) = v % 256 ^ n := by
  intro n v
  induction n with
  | zero => simp [be, value, Nat.mod_one]
  | succ n ih =>
    have h : v % 256 ^ (n + 1) = v % 256 ^ n + 256 ^ n * (v / 256 ^ n % 256) := by rw [Nat.pow_succ, Nat.mod_mul]
    rw [be, value, ih, be_length, BitVec.toNat_ofNat, h, Nat.mul_comm, Nat.add_comm]

theorem argBytes_scalar (a : Args) (i : Nat) (t : Ty) (h : width t ≠ 0) : argBytes a i t = be (width t) (a.num i) := by
  cases t <;> first | rfl | exact absurd rfl h

theorem wf_tail (off : Nat) (t : Ty) (r : List Ty) (hw : width t ≠ 0) (h : wf off (t :: r) = true) : off + width t ≤ 8 ∧ wf (off + width t) r = true := by
  cases t <;> cases r with
  | nil => first | exact absurd rfl hw | (simp only [wf, space, width, Bool.and_eq_true] at h ⊢; exact ⟨of_decide_eq_true h.1.1, trivial⟩)
  | cons t' r' => first | exact absurd rfl hw | (simp only [wf, width, Bool.and_eq_true] at h ⊢; exact ⟨of_decide_eq_true h.1.2, h.2⟩)

theorem recover_params (a : Args) : ∀ (sig : List Ty) (i off : Nat), wf off sig = true →
    recover sig ((params a i sig).take (8 - off)) = (scalars a i sig, (rest a i sig).take (8 - off - scalarWidth sig)) := by
  intro sig
  induction sig with
  | nil => intro i off _; simp [recover, params, scalars, rest]
  | cons t r ih =>
    intro i off hwf
    by_cases hw : width t = 0
    · rw [recover, if_pos hw, scalars, if_pos hw, rest, if_pos hw, scalarWidth, if_pos hw, Nat.sub_zero]
    · obtain ⟨h1, h2⟩ := wf_tail off t r hw hwf
      have hl : (argBytes a i t).length = width t := by rw [argBytes_scalar a i t hw, be_length]
      have ht : (params a i (t :: r)).take (8 - off) = argBytes a i t ++ (params a (i + 1) r).take (8 - (off + width t)) := by
        rw [params, List.take_append, hl, List.take_of_length_le (by omega), Nat.sub_sub]
      rw [recover, if_neg hw, scalars, if_neg hw, rest, if_neg hw, scalarWidth, if_neg hw, ht]
      have e1 : (argBytes a i t ++ (params a (i + 1) r).take (8 - (off + width t))).drop (width t) = (params a (i + 1) r).take (8 - (off + width t)) := by
        rw [← hl, List.drop_left]
      have e2 : (argBytes a i t ++ (params a (i + 1) r).take (8 - (off + width t))).take (width t) = argBytes a i t := by
        conv => lhs; rw [← hl]
        rw [List.take_left]
      dsimp only
      rw [e1, e2, ih _ _ h2, argBytes_scalar a i t hw, value_be, show 8 - off - (width t + scalarWidth r) = 8 - (off + width t) - scalarWidth r by omega]

/-- **C63** (all functions but the seven defective ones; the ones with a normalized integer are the subject of `C63_measurement` and `C63_zoned`): the data bytes are the
parameters one after the other, most significant byte first, cut off behind 8 bytes; -/
theorem C63_layout_partial (c : Ctx) (p : Plat) (hp : Ieee p) (f : Fn) (hf : f ∈ functions) (hd : (f.cls, f.typ) ∉ defective) (h1 : isMeasurement f = false)
    (h2 : isZoned f = false) (a : Args) (hm : missing a 0 f.sig = false) (stack : Vector U8 8) (w : W) :
    ∃ m, IsEvent c w f ((params a 0 f.sig).take 8) m ∧ Transmits c w (send c p f a stack w) m := by
  obtain ⟨hk, hc, ht⟩ := kinds_of hf hd
  rcases hk with hk | hk | hk
  · exact (send_regular c p hp f hk hc ht a stack w).2 hm
  · rw [h1] at hk; cases hk
  · rw [h2] at hk; cases hk

/-- **C63** (the same functions): from the data bytes a receiver gets back the value of every scalar parameter, and the bytes of the optional parameter or of the array
behind them as far as they fit. -/
theorem C63_recover_partial (c : Ctx) (p : Plat) (hp : Ieee p) (f : Fn) (hf : f ∈ functions) (hd : (f.cls, f.typ) ∉ defective) (h1 : isMeasurement f = false)
    (h2 : isZoned f = false) (a : Args) (hm : missing a 0 f.sig = false) (stack : Vector U8 8) (w : W) :
    ∃ m, Transmits c w (send c p f a stack w) m ∧ scalarWidth f.sig ≤ 8 ∧
      recover f.sig (m.data.toList.take m.size.toNat) = (scalars a 0 f.sig, (rest a 0 f.sig).take (8 - scalarWidth f.sig)) := by
  obtain ⟨m, hm1, hm2⟩ := C63_layout_partial c p hp f hf hd h1 h2 a hm stack w
  have hwf : wf 0 f.sig = true := by
    have hk := (kinds_of hf hd).1
    simp only [regular, Bool.and_eq_true] at hk
    grind
  refine ⟨m, hm2, ?_, ?_⟩
  · have : ∀ (sig : List Ty) (off : Nat), off ≤ 8 → wf off sig = true → off + scalarWidth sig ≤ 8 := by
      intro sig
      induction sig with
      | nil => intro off h _; simpa [scalarWidth] using h
      | cons t r ih =>
        intro off h hwf
        rw [scalarWidth]
        by_cases hw : width t = 0
        · rw [if_pos hw]; omega
        · rw [if_neg hw]
          have := wf_tail off t r hw hwf
          have := ih _ this.1 this.2
          omega
    have := this f.sig 0 (by omega) hwf
    omega
  · rw [hm1.data]
    exact recover_params a f.sig 0 0 hwf

/-! ### What the defective functions do -/

/-- `a` with the bits `x` for argument `i`. -/
def Args.with (a : Args) (i x : Nat) : Args := { a with num := fun j => if j = i then x else a.num j }

/-- **C63 is violated**: `vscp_evt_control_sendBigChangeLevel` does not send the level. -/
theorem C63_level_violated : bigChangeLevel ∈ functions ∧ ∀ c p a stack w x, send c p bigChangeLevel (Args.with a 3 x) stack w = send c p bigChangeLevel a stack w :=
  ⟨mem_defective (by decide), fun _ _ _ _ _ _ => rfl⟩

/-- **C63 is violated**: `vscp_evt_information_sendPreSetActive` sends something undefined instead of the sub-zone ... -/
theorem C63_preset_violated : preSetActive ∈ functions ∧ (∀ c p a stack w x, send c p preSetActive (Args.with a 2 x) stack w = send c p preSetActive a stack w) ∧
    ∀ c p a stack w, ∃ m, Transmits c w (send c p preSetActive a stack w) m ∧
      m.data.toList.take m.size.toNat = be 1 (a.num 0) ++ be 1 (a.num 1) ++ be 1 (a.num 3) ++ [stack[3]] := by
  refine ⟨mem_defective (by decide), ?_, ?_⟩
  · intro c p a stack w x
    unfold send
    rw [show exec p (Args.with a 2 x) preSetActive.body stack 0 = exec p a preSetActive.body stack 0 from ?_]
    simp only [preSetActive, exec, put, Args.with]
    simp
  · intro c p a stack w
    obtain ⟨m, h1, h2⟩ := send_ok c p preSetActive a stack w _ 4 (be 1 (a.num 0) ++ be 1 (a.num 1) ++ be 1 (a.num 3) ++ [stack[3]]) (by decide) (by decide) rfl rfl (by simp [be]) (by
      apply List.ext_getElem
      · simp [head, be]
      · intro i h3 h4
        have : i = 0 ∨ i = 1 ∨ i = 2 ∨ i = 3 := by simp [be] at h4; omega
        rcases this with rfl | rfl | rfl | rfl <;> simp [head, be])
    exact ⟨m, h2, h1.data⟩

/-- **C63 is violated**: `vscp_evt_information_sendDatetime` does not send the sub-zone, the first byte of the date stands in its place. -/
theorem C63_datetime_violated : datetime ∈ functions ∧
    ∀ c p a stack w x, send c p datetime (Args.with a 2 x) stack w = send c p datetime a stack w := by
  refine ⟨mem_defective (by decide), ?_⟩
  intro c p a stack w x
  have hx : ∀ a : Args, exec p a datetime.body stack 0 = if missing a 0 datetime.sig = true then .refused
      else exec p a [.byte 0 0 0, .size 1, .byte 1 1 0, .size 1, .byte 2 2 0, .size 1, .loop 2 3 4] stack 0 := fun a =>
    exec_needs p a [.byte 0 0 0, .size 1, .byte 1 1 0, .size 1, .byte 2 2 0, .size 1, .loop 2 3 4] stack 0 datetime.sig 0
  have hm : missing (Args.with a 2 x) 0 datetime.sig = missing a 0 datetime.sig := rfl
  unfold send
  rw [show exec p (Args.with a 2 x) datetime.body stack 0 = exec p a datetime.body stack 0 from ?_]
  rw [hx, hx, hm]
  cases h : missing a 0 datetime.sig with
  | true => rfl
  | false =>
    have hn : 0 < a.num 4 % 256 := by
      simp only [datetime, missing, Bool.or_false, Bool.or_eq_false_iff] at h
      have := h.2
      simp at this
      omega
    rw [if_neg (by decide), if_neg (by decide)]
    have hset : ∀ (d : Vector U8 8) (y z : U8), (d.set 2 y).set 2 z = d.set 2 z := fun d y z => by simp
    have hstep : ∀ (d : Vector U8 8) (y : U8), copyLoop (a.arr 3) (a.num 4 % 256) 2 0 (d.set 2 y) 3 = copyLoop (a.arr 3) (a.num 4 % 256) 2 0 d 3 := by
      intro d y
      rw [copyLoop, dif_pos hn]
      conv => rhs; rw [copyLoop, dif_pos hn]
      simp only [put, Nat.add_zero, show (2 : Nat) < 8 by decide, dite_true, hset]
    show (match copyLoop (a.arr 3) (a.num 4 % 256) 2 0
        (((stack.set 0 (BitVec.ofNat 8 (a.num 0 >>> 0))).set 1 (BitVec.ofNat 8 (a.num 1 >>> 0))).set 2 (BitVec.ofNat 8 (x >>> 0))) 3 with
        | none => Res.ub | some (data, size) => exec p (Args.with a 2 x) [] data size) =
      (match copyLoop (a.arr 3) (a.num 4 % 256) 2 0
        (((stack.set 0 (BitVec.ofNat 8 (a.num 0 >>> 0))).set 1 (BitVec.ofNat 8 (a.num 1 >>> 0))).set 2 (BitVec.ofNat 8 (a.num 2 >>> 0))) 3 with
        | none => Res.ub | some (data, size) => exec p a [] data size)
    rw [hstep, hstep]
    cases copyLoop (a.arr 3) (a.num 4 % 256) 2 0 ((stack.set 0 (BitVec.ofNat 8 (a.num 0 >>> 0))).set 1 (BitVec.ofNat 8 (a.num 1 >>> 0))) 3 with
    | none => rfl
    | some x => rfl

/-- **C63 is violated**: `vscp_evt_protocol_sendDropNicknameIdResetDevice` without flags, but with a time, does not send the time but something undefined. -/
theorem C63_drop_violated : dropNickname ∈ functions ∧ ∀ c p a stack w, a.null 1 = true → a.null 2 = false →
    ∃ m, Transmits c w (send c p dropNickname a stack w) m ∧ m.data.toList.take m.size.toNat = be 1 (a.num 0) ++ [stack[1]] := by
  refine ⟨mem_defective (by decide), ?_⟩
  intro c p a stack w h1 h2
  have hx : exec p a dropNickname.body stack 0 = .ok ((stack.set 0 (BitVec.ofNat 8 (a.num 0))).set 2 (BitVec.ofNat 8 (a.num 2))) 2 := by
    simp only [dropNickname, exec, h1, h2, put, putAll]
    rfl
  obtain ⟨m, h3, h4⟩ := send_ok c p dropNickname a stack w _ _ (be 1 (a.num 0) ++ [stack[1]]) (by decide) (by decide) hx rfl (by simp [be]) (by
    apply List.ext_getElem
    · simp [head, be]
    · intro i h3 h4
      have : i = 0 ∨ i = 1 := by simp [be] at h4; omega
      rcases this with rfl | rfl <;> simp [head, be])
  exact ⟨m, h4, h3.data⟩

/-- **C63** for the same function in all other cases. -/
theorem C63_drop_partial (c : Ctx) (p : Plat) (a : Args) (stack : Vector U8 8) (w : W) (h : a.null 1 = false ∨ a.null 2 = true) :
    ∃ m, IsEvent c w dropNickname (params a 0 dropNickname.sig) m ∧ Transmits c w (send c p dropNickname a stack w) m := by
  rcases Bool.eq_false_or_eq_true (a.null 1) with h1 | h1
  · have h2 : a.null 2 = true := by grind
    refine send_ok c p dropNickname a stack w (stack.set 0 (BitVec.ofNat 8 (a.num 0))) 1 _ (by decide) (by decide) ?_ ?_ ?_ ?_
    · simp only [dropNickname, exec, h1, h2, put]; rfl
    · simp [dropNickname, params, argBytes, h1, h2, be]
    · simp [dropNickname, params, argBytes, h1, h2, be]
    · simp only [dropNickname, params, argBytes, h1, h2, be]
      apply List.ext_getElem
      · simp [head]
      · intro i h3 h4
        have : i = 0 := by simp at h4; omega
        subst this; simp [head]
  · rcases Bool.eq_false_or_eq_true (a.null 2) with h2 | h2
    · refine send_ok c p dropNickname a stack w ((stack.set 0 (BitVec.ofNat 8 (a.num 0))).set 1 (BitVec.ofNat 8 (a.num 1))) 2 _ (by decide) (by decide) ?_ ?_ ?_ ?_
      · simp only [dropNickname, exec, h1, h2, put, putAll]; rfl
      · simp [dropNickname, params, argBytes, h1, h2, be]
      · simp [dropNickname, params, argBytes, h1, h2, be]
      · simp only [dropNickname, params, argBytes, h1, h2, be]
        apply List.ext_getElem
        · simp [head]
        · intro i h3 h4
          have : i = 0 ∨ i = 1 := by simp at h4; omega
          rcases this with rfl | rfl <;> simp [head]
    · refine send_ok c p dropNickname a stack w (((stack.set 0 (BitVec.ofNat 8 (a.num 0))).set 1 (BitVec.ofNat 8 (a.num 1))).set 2 (BitVec.ofNat 8 (a.num 2))) 3 _
        (by decide) (by decide) ?_ ?_ ?_ ?_
      · simp only [dropNickname, exec, h1, h2, put, putAll]; rfl
      · simp [dropNickname, params, argBytes, h1, h2, be]
      · simp [dropNickname, params, argBytes, h1, h2, be]
      · simp only [dropNickname, params, argBytes, h1, h2, be]
        apply List.ext_getElem
        · simp [head]
        · intro i h3 h4
          have : i = 0 ∨ i = 1 ∨ i = 2 := by simp at h4; omega
          rcases this with rfl | rfl | rfl <;> simp [head]

/-- The copy loop starts one byte too far: the last byte of a full page response is written behind the message. -/
theorem copy_ub (src : Nat → U8) (n : Nat) (hn : 7 ≤ n) : ∀ (k i : Nat) (d : Vector U8 8) (s : U8), k = 6 - i → i ≤ 6 → s.toNat = 1 + i →
    copyLoop src n 2 i d s = none := by
  intro k
  induction k with
  | zero =>
    intro i d s hk hi hs
    rw [copyLoop, dif_pos (by omega), put, dif_neg (by omega)]
  | succ k ih =>
    intro i d s hk hi hs
    have h1 : (s + 1).toNat = 1 + (i + 1) := by
      rw [BitVec.toNat_add]
      show (s.toNat + 1) % 256 = _
      omega
    rw [copyLoop, dif_pos (by omega), put, dif_pos (by omega)]
    dsimp only
    rw [if_neg (by omega)]
    exact ih (i + 1) _ _ (by omega) (by omega) h1

/-- **C62 is violated**: `vscp_evt_protocol_sendReadWritePageResponse` with 7 data bytes, as documented, writes behind the end of the message. -/
theorem C62_page_violated : pageResponse ∈ functions ∧ ∀ c p a stack w, a.null 1 = false → 7 ≤ a.num 2 % 256 → send c p pageResponse a stack w = (none, w) := by
  refine ⟨mem_defective (by decide), ?_⟩
  intro c p a stack w h1 h2
  have hx := exec_needs p a [.byte 0 0 0, .size 1, .loop 2 1 2] stack 0 pageResponse.sig 0
  rw [show needs 0 pageResponse.sig ++ [.byte 0 0 0, .size 1, .loop 2 1 2] = pageResponse.body from rfl] at hx
  have hm : missing a 0 pageResponse.sig = false := by
    simp only [pageResponse, missing, h1, Bool.or_false, Bool.false_or]
    simp; omega
  rw [if_neg (by rw [hm]; decide)] at hx
  have e := copy_ub (a.arr 1) (a.num 2 % 256) h2 6 0 (stack.set 0 (BitVec.ofNat 8 (a.num 0 >>> 0))) 1 rfl (by decide) rfl
  have hu : exec p a [.byte 0 0 0, .size 1, .loop 2 1 2] stack 0 = .ub := by
    show (match copyLoop (a.arr 1) (a.num 2 % 256) 2 0 (stack.set 0 (BitVec.ofNat 8 (a.num 0 >>> 0))) 1 with
      | none => Res.ub | some (data, size) => exec p a [] data size) = _
    rw [e]
  unfold send
  rw [hx, hu]
  rfl

/-- The result of a function which sets a size of more than 8 bytes: with the loopback nothing is sent, without it a frame with an invalid size. -/
theorem oversized (c : Ctx) (p : Plat) (f : Fn) (a : Args) (stack : Vector U8 8) (w : W) (d : Vector U8 8) (s : U8) (h : exec p a f.body stack 0 = .ok d s) (hs : 8 < s.toNat) :
    (c.loopback = true → (send c p f a stack w).1 = some false ∧ (send c p f a stack w).2.out = w.out) ∧
    (c.loopback = false → ∃ m, Transmits c w (send c p f a stack w) m ∧ 8 < m.size.toNat) := by
  have : send c p f a stack w = ((fun (x : Bool) => some x) (Transport.writeMessage c ⟨3, BitVec.ofNat 16 f.cls, BitVec.ofNat 8 f.typ, w.v.nick, c.hardCoded, s, d⟩ w).1,
      (Transport.writeMessage c ⟨3, BitVec.ofNat 16 f.cls, BitVec.ofNat 8 f.typ, w.v.nick, c.hardCoded, s, d⟩ w).2) := by
    unfold send
    rw [h]
    rfl
  rw [this, Transport.writeMessage_run]
  constructor
  · intro hl
    rw [if_pos ⟨hl, by dsimp only; omega⟩]
    refine ⟨rfl, ?_⟩
    rw [Transport.countErr_eq]
  · intro hl
    rw [if_neg (by rw [hl]; simp)]
    refine ⟨⟨3, BitVec.ofNat 16 f.cls, BitVec.ofNat 8 f.typ, w.v.nick, c.hardCoded, s, d⟩, ⟨rfl, ?_⟩, hs⟩
    rw [Transport.countErr_eq]

/-- **C62 is violated**: `vscp_evt_protocol_sendHighEndServerServiceResponse` with more than four bytes of address sends no frame or one with an invalid size. -/
theorem C62_service_violated : serviceResponse ∈ functions ∧ ∀ c p a stack w, a.null 1 = false → 5 ≤ a.num 2 % 256 →
    (c.loopback = true → (send c p serviceResponse a stack w).1 = some false ∧ (send c p serviceResponse a stack w).2.out = w.out) ∧
    (c.loopback = false → ∃ m, Transmits c w (send c p serviceResponse a stack w) m ∧ 8 < m.size.toNat) := by
  refine ⟨mem_defective (by decide), ?_⟩
  intro c p a stack w h1 h2
  have hx := exec_needs p a [.byte 0 0 8, .byte 1 0 0, .size 2, .loop 2 1 2, .byte 6 3 8, .byte 7 3 0, .size 2] stack 0 serviceResponse.sig 0
  rw [show needs 0 serviceResponse.sig ++ [.byte 0 0 8, .byte 1 0 0, .size 2, .loop 2 1 2, .byte 6 3 8, .byte 7 3 0, .size 2] = serviceResponse.body from rfl] at hx
  have hm : missing a 0 serviceResponse.sig = false := by
    simp only [serviceResponse, missing, h1, Bool.or_false, Bool.false_or]
    simp; omega
  rw [if_neg (by rw [hm]; decide)] at hx
  obtain ⟨d, s, e, hs⟩ := copy_size (a.arr 1) (a.num 2 % 256) 2 _ 0 ((stack.set 0 (BitVec.ofNat 8 (a.num 0 >>> 8))).set 1 (BitVec.ofNat 8 (a.num 0 >>> 0))) 2 rfl (by decide)
    (by decide)
  have e2 : (2 : U8).toNat = 2 := rfl
  refine oversized c p _ a stack w ((d.set 6 (BitVec.ofNat 8 (a.num 3 >>> 8))).set 7 (BitVec.ofNat 8 (a.num 3 >>> 0))) (s + BitVec.ofNat 8 2) (hx.trans ?_) ?_
  · show (match copyLoop (a.arr 1) (a.num 2 % 256) 2 0 ((stack.set 0 (BitVec.ofNat 8 (a.num 0 >>> 8))).set 1 (BitVec.ofNat 8 (a.num 0 >>> 0))) 2 with
      | none => Res.ub | some (data, size) => exec p a [.byte 6 3 8, .byte 7 3 0, .size 2] data size) = _
    rw [e]
    rfl
  · rw [BitVec.toNat_add]
    show 8 < (s.toNat + 2) % 256
    omega

/-- **C62**, **C63** for the same function with an address of exactly four bytes. -/
theorem C63_service_partial (c : Ctx) (p : Plat) (a : Args) (stack : Vector U8 8) (w : W) (h1 : a.null 1 = false) (h2 : a.num 2 % 256 = 4) :
    ∃ m, IsEvent c w serviceResponse (params a 0 serviceResponse.sig) m ∧ Transmits c w (send c p serviceResponse a stack w) m := by
  have hx := exec_needs p a [.byte 0 0 8, .byte 1 0 0, .size 2, .loop 2 1 2, .byte 6 3 8, .byte 7 3 0, .size 2] stack 0 serviceResponse.sig 0
  rw [show needs 0 serviceResponse.sig ++ [.byte 0 0 8, .byte 1 0 0, .size 2, .loop 2 1 2, .byte 6 3 8, .byte 7 3 0, .size 2] = serviceResponse.body from rfl] at hx
  have hm : missing a 0 serviceResponse.sig = false := by
    simp only [serviceResponse, missing, h1, h2, Bool.or_false, Bool.false_or]
    decide
  rw [if_neg (by rw [hm]; decide)] at hx
  obtain ⟨d1, e1, g1⟩ := exec_byte p a 0 0 8 [.byte 1 0 0, .size 2, .loop 2 1 2, .byte 6 3 8, .byte 7 3 0, .size 2] stack 0 (by omega)
  obtain ⟨d2, e2, g2⟩ := exec_byte p a 1 0 0 [.size 2, .loop 2 1 2, .byte 6 3 8, .byte 7 3 0, .size 2] d1 0 (by omega)
  obtain ⟨d3, s3, e3, g3, g3'⟩ := copyLoop_head (a.arr 1) (a.num 2 % 256) 2 _ 0 d2 2 rfl rfl (by omega) (by omega)
  obtain ⟨d4, e4, g4⟩ := exec_byte p a 6 3 8 [.byte 7 3 0, .size 2] d3 s3 (by omega)
  obtain ⟨d5, e5, g5⟩ := exec_byte p a 7 3 0 [.size 2] d4 s3 (by omega)
  have hfin : exec p a serviceResponse.body stack 0 = .ok d5 (s3 + BitVec.ofNat 8 2) := by
    rw [hx, e1, e2]
    show (match copyLoop (a.arr 1) (a.num 2 % 256) 2 0 d2 2 with
      | none => Res.ub | some (data, size) => exec p a [.byte 6 3 8, .byte 7 3 0, .size 2] data size) = _
    rw [e3]
    show exec p a [.byte 6 3 8, .byte 7 3 0, .size 2] d3 s3 = _
    rw [e4, e5, exec, exec]
  have hs3 : s3.toNat = 6 := by omega
  have hs : (s3 + BitVec.ofNat 8 2).toNat = 8 := by
    rw [BitVec.toNat_add, hs3]; rfl
  have hp : params a 0 serviceResponse.sig = be 2 (a.num 0) ++ (List.range 4).map (a.arr 1) ++ be 2 (a.num 3) := by
    simp [serviceResponse, params, argBytes, bytesOf, h1, h2]
  have hlen : (params a 0 serviceResponse.sig).length = 8 := by rw [hp]; simp [be_length]
  refine send_ok c p serviceResponse a stack w d5 _ _ (by decide) (by decide) hfin (by rw [hs, hlen]) (by rw [hlen]; omega) ?_
  rw [hs, hp, show (8 : Nat) = 7 + 1 from rfl, g5, show (7 : Nat) = 6 + 1 from rfl, g4]
  rw [hs3] at g3'
  rw [g3', h2, show (2 + 0 : Nat) = 1 + 1 from rfl, g2, show (1 : Nat) = 0 + 1 from rfl, g1]
  simp [head, be, Nat.shiftRight_eq_div_pow, List.range_succ]

/-- One pass of the copy loop, if the size is already 8 or more. -/
theorem copy_full (src : Nat → U8) (n off : Nat) (d : Vector U8 8) (s : U8) (hn : 0 < n) (ho : off < 8) (h8 : 7 ≤ s.toNat) (hs : s.toNat < 255) :
    ∃ d' s', copyLoop src n off 0 d s = some (d', s') ∧ s'.toNat = s.toNat + 1 := by
  have h1 : (s + 1).toNat = s.toNat + 1 := by
    rw [BitVec.toNat_add]
    show (s.toNat + 1) % 256 = _
    omega
  rw [copyLoop, dif_pos hn, put, dif_pos (by omega)]
  dsimp only
  rw [if_pos (by omega)]
  exact ⟨_, _, rfl, h1⟩

theorem copy_any (src : Nat → U8) (n off : Nat) (d : Vector U8 8) (s : U8) (hn : 0 < n) (ho : off < 8) (h8 : off ≤ s.toNat) (hs : s.toNat < 20) :
    ∃ d' s', copyLoop src n off 0 d s = some (d', s') ∧ s.toNat + 1 ≤ s'.toNat ∧ s'.toNat ≤ max 8 (s.toNat + 1) := by
  by_cases h : s.toNat < 8
  · obtain ⟨d', s', e, g⟩ := copy_size src n off _ 0 d s rfl (by omega) h
    exact ⟨d', s', e, by omega, by omega⟩
  · obtain ⟨d', s', e, g⟩ := copy_full src n off d s hn ho (by omega) (by omega)
    exact ⟨d', s', e, by omega, by omega⟩

/-- **C62 is violated**: `vscp_evt_protocol_sendGetEventInterestResponse` never sends a valid frame. -/
theorem C62_interest_violated : interestResponse ∈ functions ∧ ∀ c p a stack w, missing a 0 interestResponse.sig = false →
    (c.loopback = true → (send c p interestResponse a stack w).1 = some false ∧ (send c p interestResponse a stack w).2.out = w.out) ∧
    (c.loopback = false → ∃ m, Transmits c w (send c p interestResponse a stack w) m ∧ 8 < m.size.toNat) := by
  refine ⟨mem_defective (by decide), ?_⟩
  intro c p a stack w hm
  have hx := exec_needs p a [.byte 0 0 0, .size 1, .byte 1 1 8, .byte 2 1 0, .size 2, .byte 2 2 0, .size 1, .loop 3 3 4, .byte 4 5 0, .size 1, .loop 5 6 7,
      .byte 6 8 0, .size 1, .loop 7 9 10] stack 0 interestResponse.sig 0
  rw [show needs 0 interestResponse.sig ++ [.byte 0 0 0, .size 1, .byte 1 1 8, .byte 2 1 0, .size 2, .byte 2 2 0, .size 1, .loop 3 3 4, .byte 4 5 0, .size 1, .loop 5 6 7,
      .byte 6 8 0, .size 1, .loop 7 9 10] = interestResponse.body from rfl] at hx
  rw [if_neg (by rw [hm]; decide)] at hx
  have hn : 0 < a.num 4 % 256 ∧ 0 < a.num 7 % 256 ∧ 0 < a.num 10 % 256 := by
    simp only [interestResponse, missing, Bool.or_eq_false_iff, Nat.reduceAdd, beq_eq_false_iff_ne] at hm
    omega
  have hadd : ∀ s : U8, s.toNat < 20 → (s + BitVec.ofNat 8 1).toNat = s.toNat + 1 := by
    intro s h
    rw [BitVec.toNat_add]
    show (s.toNat + 1) % 256 = _
    omega
  let d0 := (((stack.set 0 (BitVec.ofNat 8 (a.num 0 >>> 0))).set 1 (BitVec.ofNat 8 (a.num 1 >>> 8))).set 2 (BitVec.ofNat 8 (a.num 1 >>> 0))).set 2 (BitVec.ofNat 8 (a.num 2 >>> 0))
  obtain ⟨d1, s1, e1, g1, g1'⟩ := copy_any (a.arr 3) (a.num 4 % 256) 3 d0 4 hn.1 (by decide) (by decide) (by decide)
  have h4 : (4 : U8).toNat = 4 := rfl
  have q1 := hadd s1 (by omega)
  obtain ⟨d2, s2, e2, g2, g2'⟩ := copy_any (a.arr 6) (a.num 7 % 256) 5 (d1.set 4 (BitVec.ofNat 8 (a.num 5 >>> 0))) (s1 + BitVec.ofNat 8 1) hn.2.1 (by decide) (by omega) (by omega)
  have q2 := hadd s2 (by omega)
  obtain ⟨d3, s3, e3, g3, g3'⟩ := copy_any (a.arr 9) (a.num 10 % 256) 7 (d2.set 6 (BitVec.ofNat 8 (a.num 8 >>> 0))) (s2 + BitVec.ofNat 8 1) hn.2.2 (by decide) (by omega) (by omega)
  refine oversized c p _ a stack w d3 s3 (hx.trans ?_) (by omega)
  show (match copyLoop (a.arr 3) (a.num 4 % 256) 3 0 d0 4 with
    | none => Res.ub
    | some (data, size) => exec p a [.byte 4 5 0, .size 1, .loop 5 6 7, .byte 6 8 0, .size 1, .loop 7 9 10] data size) = _
  rw [e1]
  show (match copyLoop (a.arr 6) (a.num 7 % 256) 5 0 (d1.set 4 (BitVec.ofNat 8 (a.num 5 >>> 0))) (s1 + BitVec.ofNat 8 1) with
    | none => Res.ub
    | some (data, size) => exec p a [.byte 6 8 0, .size 1, .loop 7 9 10] data size) = _
  rw [e2]
  show (match copyLoop (a.arr 9) (a.num 10 % 256) 7 0 (d2.set 6 (BitVec.ofNat 8 (a.num 8 >>> 0))) (s2 + BitVec.ofNat 8 1) with
    | none => Res.ub
    | some (data, size) => exec p a [] data size) = _
  rw [e3]
  rfl

/-- **C62 is violated**: the functions with a normalized integer compute the negative of the smallest value. -/
theorem C62_smallest_violated (c : Ctx) (p : Plat) (f : Fn) (hm : isMeasurement f = true) (a : Args) (stack : Vector U8 8) (w : W)
    (hmin : (BitVec.ofNat 32 (a.num 2)).toInt = -2 ^ 31) : send c p f a stack w = (none, w) := by
  simp only [isMeasurement, Bool.and_eq_true, decide_eq_true_eq] at hm
  have hd : BitVec.ofNat 32 (a.num 2) = 0x80000000#32 := by
    apply BitVec.eq_of_toInt_eq
    rw [hmin]; decide
  have hx : exec p a f.body stack 0 = .ub := by
    rw [hm.2]
    simp only [exec, put, show (0 : Nat) < 8 by decide, dite_true, hd]
    rw [show (2147483648#32 : U32) = 2147483648 from rfl, DataCoding.C02_int32_min_is_undefined]
  unfold send
  rw [hx]
  rfl

/-- The memory representation of a float with 4 bytes, on any platform. -/
theorem exec_float (p : Plat) (h4 : p.sizeofFloat = 4) (a : Args) (stack : Vector U8 8) :
    ∃ d, exec p a [.mem 0 0 3 false, .mem 1 0 2 false, .mem 2 0 1 false, .mem 3 0 0 false, .size 4] stack 0 = .ok d 4 ∧
      head d 4 = [memByte p.littleEndian 4 (a.num 0) 3, memByte p.littleEndian 4 (a.num 0) 2, memByte p.littleEndian 4 (a.num 0) 1, memByte p.littleEndian 4 (a.num 0) 0] := by
  obtain ⟨d1, e1, g1⟩ := put_head stack 0 (by omega) (memByte p.littleEndian 4 (a.num 0) 3)
  obtain ⟨d2, e2, g2⟩ := put_head d1 1 (by omega) (memByte p.littleEndian 4 (a.num 0) 2)
  obtain ⟨d3, e3, g3⟩ := put_head d2 2 (by omega) (memByte p.littleEndian 4 (a.num 0) 1)
  obtain ⟨d4, e4, g4⟩ := put_head d3 3 (by omega) (memByte p.littleEndian 4 (a.num 0) 0)
  refine ⟨d4, ?_, ?_⟩
  · simp [exec, h4, e1, e2, e3, e4]
  · rw [show (4 : Nat) = 3 + 1 from rfl, g4, show (3 : Nat) = 2 + 1 from rfl, g3, show (2 : Nat) = 1 + 1 from rfl, g2, show (1 : Nat) = 0 + 1 from rfl, g1]
    simp [head]

/-- **C63 is violated** on a platform which stores the highest byte first: the bytes of a `float_t` are sent in reverse order. -/
theorem C63_float_violated (c : Ctx) (p : Plat) (hb : p.littleEndian = false) (h4 : p.sizeofFloat = 4) (f : Fn) (hf : f ∈ functions) (hs : f.sig = [.f32])
    (hd : (f.cls, f.typ) ∉ defective) (a : Args) (stack : Vector U8 8) (w : W) :
    ∃ m, IsEvent c w f (be 4 (a.num 0)).reverse m ∧ Transmits c w (send c p f a stack w) m := by
  obtain ⟨hk, hc, ht⟩ := kinds_of hf hd
  have hbody : f.body = [.mem 0 0 3 false, .mem 1 0 2 false, .mem 2 0 1 false, .mem 3 0 0 false, .size 4] := by
    simp only [regular, isMeasurement, isZoned, hs, Bool.and_eq_true, decide_eq_true_eq] at hk
    rcases hk with hk | hk | hk
    · exact hk.2
    · simp at hk
    · simp at hk
  obtain ⟨d, e, g⟩ := exec_float p h4 a stack
  refine send_ok c p f a stack w d 4 _ hc ht (by rw [hbody]; exact e) (by simp [be_length]) (by simp [be_length]) ?_
  rw [show (4 : U8).toNat = 4 from rfl, g, hb]
  simp [be, memByte, Nat.shiftRight_eq_div_pow]

/-- **C62 is violated** on a platform whose `double_t` has 4 bytes, e. g. AVR: the functions with a `double_t` read behind the argument. -/
theorem C62_double_violated (c : Ctx) (p : Plat) (h4 : p.sizeofDouble = 4) (f : Fn) (hf : f ∈ functions) (hs : f.sig = [.f64])
    (hd : (f.cls, f.typ) ∉ defective) (a : Args) (stack : Vector U8 8) (w : W) : send c p f a stack w = (none, w) := by
  obtain ⟨hk, -, -⟩ := kinds_of hf hd
  have hbody : f.body = needs 0 [.f64] ++ gen 0 0 [.f64] := by
    simp only [regular, isMeasurement, isZoned, hs, Bool.and_eq_true, decide_eq_true_eq] at hk
    rcases hk with hk | hk | hk
    · exact hk.2
    · simp at hk
    · simp at hk
  have hx : exec p a f.body stack 0 = .ub := by
    rw [hbody]
    simp [needs, gen, gen1, exec, h4]
  unfold send
  rw [hx]
  rfl

/-! ### Concrete cases -/

/-- Arguments: 100 + i, no null pointers, arrays 1, 2, 3, ... -/
def sampleArgs : Args := ⟨fun i => if i = 4 then 6 else 100 + i, fun _ => false, fun _ j => BitVec.ofNat 8 (j + 1)⟩

def pc : Plat := ⟨true, 4, 8⟩

example : Ieee pc := ⟨rfl, rfl, rfl⟩

/-- 20/51: index, zone, sub-zone and an array, which is cut off. -/
def bigLevelChanged : Fn :=
  ⟨"information_sendBigLevelChanged", 20, 51, [.u8, .u8, .u8, .arr, .len], [.need 3 4, .byte 0 0 0, .size 1, .byte 1 1 0, .size 1, .byte 2 2 0, .size 1, .loop 3 3 4]⟩

theorem bigLevelChanged_mem : bigLevelChanged ∈ functions := by decide +kernel

example : ∃ m, IsEvent Ex.ctx (Safety.node Ex.ctx Safety.allOk (Safety.mem 0x90) []) bigLevelChanged [100, 101, 102, 1, 2, 3, 4, 5] m ∧
    Transmits Ex.ctx (Safety.node Ex.ctx Safety.allOk (Safety.mem 0x90) [])
      (send Ex.ctx pc bigLevelChanged sampleArgs (Vector.replicate 8 0xAA) (Safety.node Ex.ctx Safety.allOk (Safety.mem 0x90) [])) m := by
  have := C63_layout_partial Ex.ctx pc ⟨rfl, rfl, rfl⟩ bigLevelChanged bigLevelChanged_mem (by decide) (by decide) (by decide) sampleArgs (by decide) (Vector.replicate 8 0xAA)
    (Safety.node Ex.ctx Safety.allOk (Safety.mem 0x90) [])
  rwa [show (params sampleArgs 0 bigLevelChanged.sig).take 8 = [100, 101, 102, 1, 2, 3, 4, 5] by decide +kernel] at this

/-- 10/6: a temperature. -/
def temperature : Fn := ⟨"measurement_sendTemperature", 10, 6, [.u8, .u8, .i32, .i8], [.size 1, .format 0 1 0, .norm 1 2 3]⟩

example : temperature ∈ functions ∧ isMeasurement temperature = true := by decide +kernel

/-- -1234 with exponent -2, unit 1, index 3: -12.34 degrees Celsius. -/
example : exec pc ⟨fun i => [3, 1, 2 ^ 32 - 1234, 254].getD i 0, fun _ => false, fun _ _ => 0⟩ temperature.body (Vector.replicate 8 0xAA) 0 =
    .ok #v[0x8B, 0x82, 0xFB, 0x2E, 0xAA, 0xAA, 0xAA, 0xAA] 4 := by rfl

example : (BitVec.ofNat 32 (2 ^ 32 - 1234)).toInt ≠ -2 ^ 31 ∧ (BitVec.ofNat 8 254).toInt ≠ -128 := by decide

example : (functions.filter isMeasurement).length > 50 ∧ (functions.filter isZoned).length > 50 ∧ (functions.filter regular).length > 600 := by decide +kernel

/-- Functions with one `float_t` and with one `double_t`. -/
example : 50 < (functions.filter (fun f => decide (f.sig = [.f32]))).length ∧ 50 < (functions.filter (fun f => decide (f.sig = [.f64]))).length := by decide +kernel

example : missing sampleArgs 0 bigLevelChanged.sig = false ∧ missing { sampleArgs with null := fun _ => true } 0 bigLevelChanged.sig = true ∧
    missing sampleArgs 0 interestResponse.sig = false := by decide

/-- The receiver gets back index, zone, sub-zone and the first five bytes of the array. -/
example : recover bigLevelChanged.sig [100, 101, 102, 1, 2, 3, 4, 5] = ([100, 101, 102], [1, 2, 3, 4, 5]) := by decide +kernel

end Vscp.EvtProps
