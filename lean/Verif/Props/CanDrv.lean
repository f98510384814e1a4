/-
C81, C82, C83: the CAN driver of the AVR example.
-/
import Verif.Spec.CanDrv

namespace Vscp.CanDrvProps
open Vscp.Driver.CanDrv Vscp.Spec.CanDrv

/-! ### Register level -/

theorem foldl_putMsg : ∀ (l : List U8) (w : Win), w.indx.val + l.length ≤ 8 →
    (l.foldl putMsg w).mob = { w.mob with msg := (l.foldl putMsg w).mob.msg } ∧
    ∀ (j : Nat) (hj : j < 8), (l.foldl putMsg w).mob.msg[j] = if h : w.indx.val ≤ j ∧ j < w.indx.val + l.length then l[j - w.indx.val]'(by omega) else w.mob.msg[j]
  | [], w, _ => ⟨rfl, fun j hj => by
      rw [dif_neg (by simp)]; rfl⟩
  | b :: l, w, hl => by
    rw [List.foldl_cons]
    simp only [List.length_cons] at hl
    by_cases h0 : l = []
    · subst h0
      refine ⟨rfl, fun j hj => ?_⟩
      simp only [List.foldl_nil, putMsg, Vector.getElem_set]
      by_cases hji : w.indx.val = j
      · rw [if_pos hji, dif_pos (by simp; omega)]
        simp [hji]
      · rw [if_neg hji, dif_neg (by simp; omega)]
    · have hlen : 0 < l.length := List.length_pos_iff.2 h0
      have hi : (putMsg w b).indx.val = w.indx.val + 1 := by
        simp only [putMsg, Fin.val_add]
        show (w.indx.val + 1) % 8 = _
        omega
      obtain ⟨i1, i2⟩ := foldl_putMsg l (putMsg w b) (by omega)
      refine ⟨?_, fun j hj => ?_⟩
      · exact i1
      · rw [i2 j hj]
        by_cases hji : w.indx.val = j
        · rw [dif_neg (by omega), dif_pos (by simp; omega)]
          simp [putMsg, hji]
        · by_cases hlt : w.indx.val < j ∧ j < w.indx.val + 1 + l.length
          · rw [dif_pos (by omega), dif_pos (by simp; omega)]
            rw [List.getElem_cons, dif_neg (by omega)]
            congr 1
            omega
          · rw [dif_neg (by omega), dif_neg (by simp; omega)]
            simp only [putMsg]
            rw [Vector.getElem_set_ne _ _ hji]

/-- An empty message object. -/
def empty : Mob := ⟨0, 0, 0, 0, 0, 0, 0, 0, 0, 0, Vector.replicate 8 0, false⟩

theorem clr_eq (m : Mob) : clr ⟨m, 0⟩ = ⟨empty, 0⟩ := by
  obtain ⟨h1, h2⟩ := foldl_putMsg (List.replicate 8 (0 : U8)) ⟨⟨0, 0, 0, 0, 0, 0, 0, 0, 0, 0, m.msg, false⟩, 0⟩ (by simp)
  have e : clr ⟨m, 0⟩ = (List.replicate 8 (0 : U8)).foldl putMsg ⟨⟨0, 0, 0, 0, 0, 0, 0, 0, 0, 0, m.msg, false⟩, 0⟩ := rfl
  have hx : (clr ⟨m, 0⟩).indx = 0 := by rw [e]; simp [List.replicate, putMsg]
  have hm : (clr ⟨m, 0⟩).mob = empty := by
    have hv : ((List.replicate 8 (0 : U8)).foldl putMsg ⟨⟨0, 0, 0, 0, 0, 0, 0, 0, 0, 0, m.msg, false⟩, 0⟩).mob.msg = Vector.replicate 8 0 := by
      apply Vector.ext
      intro j hj
      rw [h2 j hj, dif_pos (by simpa using hj), List.getElem_replicate, Vector.getElem_replicate]
    rw [e, h1, hv]
    rfl
  cases hc : clr ⟨m, 0⟩ with
  | mk a b => rw [hc] at hx hm; simp only at hx hm; rw [hx, hm]

/-- The bytes of a frame in an empty message object. -/
def bytes (f : Frame) : Vector U8 8 := Vector.ofFn fun i => if i.val < f.len.toNat then f.byte[i] else 0

theorem take_bytes (f : Frame) (h : f.len.toNat ≤ 8) : (bytes f).toList.take f.len.toNat = f.byte.toList.take f.len.toNat := by
  apply List.ext_getElem
  · simp
  · intro j h1 h2
    simp only [List.length_take, Vector.length_toList] at h1
    simp only [List.getElem_take, Vector.getElem_toList, bytes, Vector.getElem_ofFn]
    rw [if_pos (by omega)]
    rfl

theorem data_fold (f : Frame) (h : f.len.toNat ≤ 8) (w : Win) (h0 : w.indx = 0) (hm : w.mob.msg = Vector.replicate 8 0) :
    ((f.byte.toList.take f.len.toNat).foldl putMsg w).mob = { w.mob with msg := bytes f } := by
  have hl : (f.byte.toList.take f.len.toNat).length = f.len.toNat := by simp; omega
  obtain ⟨h1, h2⟩ := foldl_putMsg (f.byte.toList.take f.len.toNat) w (by rw [h0, hl]; simpa using h)
  rw [h1]
  suffices hv : ((f.byte.toList.take f.len.toNat).foldl putMsg w).mob.msg = bytes f by rw [hv]
  apply Vector.ext
  intro j hj
  rw [h2 j hj]
  simp only [hl, h0, Fin.val_zero, Nat.zero_add, Nat.sub_zero, Nat.zero_le, true_and, bytes, Vector.getElem_ofFn]
  by_cases hjl : j < f.len.toNat
  · rw [dif_pos hjl, if_pos hjl]; simp
  · rw [dif_neg hjl, if_neg hjl, hm]; simp

/-- A filled message object. -/
def filled (f : Frame) : Mob where
  st := 0
  cd := (if f.flags &&& 0x01 ≠ 0 then 0x10 + (f.len &&& 0x0F) else f.len &&& 0x0F) ||| 0x40
  idt1 := if f.flags &&& 0x01 ≠ 0 then ((f.id >>> 21) &&& 0xFF).setWidth 8 else (f.id >>> 3).setWidth 8
  idt2 := if f.flags &&& 0x01 ≠ 0 then ((f.id >>> 13) &&& 0xFF).setWidth 8 else ((f.id &&& 0x07) <<< 5).setWidth 8
  idt3 := if f.flags &&& 0x01 ≠ 0 then ((f.id >>> 5) &&& 0xFF).setWidth 8 else 0
  idt4 := if f.flags &&& 0x01 ≠ 0 then (if f.flags &&& 0x04 ≠ 0 then ((f.id &&& 0x1F) <<< 3).setWidth 8 ||| 0x04 else ((f.id &&& 0x1F) <<< 3).setWidth 8)
    else (if f.flags &&& 0x02 ≠ 0 then 0x04 else 0)
  idm1 := 0
  idm2 := 0
  idm3 := 0
  idm4 := 0
  msg := bytes f
  en := true

theorem or40 : ∀ x : U8, decide ((x ||| 0x40) &&& 0xC0 ≠ 0) = true := by decide +kernel

theorem fill_eq (f : Frame) (h : f.len.toNat ≤ 8) (m : Mob) : (fill f ⟨m, 0⟩).mob = filled f := by
  simp only [fill, clr_eq]
  by_cases hx : f.flags &&& 0x01 ≠ 0
  · simp only [if_pos hx]
    rw [putCd, data_fold f h _ rfl rfl]
    simp only [putCd, filled, if_pos hx, empty]
    congr 1
    exact or40 _
  · simp only [if_neg hx]
    by_cases hr : f.flags &&& 0x02 ≠ 0
    · simp only [if_pos hr]
      rw [putCd, data_fold f h _ rfl rfl]
      simp only [putCd, filled, if_neg hx, if_pos hr, empty]
      congr 1
      exact or40 _
    · simp only [if_neg hr]
      rw [putCd, data_fold f h _ rfl rfl]
      simp only [putCd, filled, if_neg hx, if_neg hr, empty]
      congr 1
      exact or40 _

theorem flag0 : ∀ x : U8, (x &&& 0x01 ≠ 0) ↔ x.getLsbD 0 = true := by decide +kernel
theorem flag1 : ∀ x : U8, (x &&& 0x02 ≠ 0) ↔ x.getLsbD 1 = true := by decide +kernel
theorem flag2 : ∀ x : U8, (x &&& 0x04 ≠ 0) ↔ x.getLsbD 2 = true := by decide +kernel

/-- The registers of a filled message object. -/
theorem cd_ext : ∀ l : U8, l.toNat ≤ 8 → ((0x10 + (l &&& 0x0F)) ||| 0x40) &&& 0xC0 = 0x40 ∧ ((0x10 + (l &&& 0x0F)) ||| 0x40) &&& 0x10 ≠ 0 ∧ ((0x10 + (l &&& 0x0F)) ||| 0x40) &&& 0x0F = l := by
  decide +kernel
theorem cd_std : ∀ l : U8, l.toNat ≤ 8 → ((l &&& 0x0F) ||| 0x40) &&& 0xC0 = 0x40 ∧ ((l &&& 0x0F) ||| 0x40) &&& 0x10 = 0 ∧ ((l &&& 0x0F) ||| 0x40) &&& 0x0F = l := by
  decide +kernel

theorem and_ff (x : U32) (k : Nat) : (((x >>> k) &&& 0xFF).setWidth 8 : U8).toNat = x.toNat / 2 ^ k % 256 := by
  rw [BitVec.toNat_setWidth, BitVec.toNat_and, BitVec.toNat_ushiftRight, Nat.shiftRight_eq_div_pow]
  show (x.toNat / 2 ^ k &&& (2 ^ 8 - 1)) % 2 ^ 8 = _
  rw [Nat.and_two_pow_sub_one_eq_mod]
  omega

theorem low_shift (x : U32) (a k : Nat) (h : a + k ≤ 8) : (((x &&& BitVec.ofNat 32 (2 ^ a - 1)) <<< k).setWidth 8 : U8).toNat = x.toNat % 2 ^ a * 2 ^ k := by
  have h1 : 2 ^ a * 2 ^ k ≤ 2 ^ 8 := by rw [← Nat.pow_add]; exact Nat.pow_le_pow_right (by omega) h
  have h2 : x.toNat % 2 ^ a < 2 ^ a := Nat.mod_lt _ (Nat.pow_pos (by omega))
  have h3 : x.toNat % 2 ^ a * 2 ^ k < 2 ^ 8 := Nat.lt_of_lt_of_le (Nat.mul_lt_mul_of_pos_right h2 (Nat.pow_pos (by omega))) h1
  have h4 : 2 ^ a - 1 < 2 ^ 32 := by
    have : 2 ^ a ≤ 2 ^ 8 := Nat.pow_le_pow_right (by omega) (by omega)
    omega
  rw [BitVec.toNat_setWidth, BitVec.toNat_shiftLeft, BitVec.toNat_and, BitVec.toNat_ofNat, Nat.mod_eq_of_lt h4, Nat.and_two_pow_sub_one_eq_mod, Nat.shiftLeft_eq]
  rw [Nat.mod_eq_of_lt (a := _ * _) (by omega), Nat.mod_eq_of_lt h3]

theorem mul8 : ∀ x : U8, x.toNat % 8 = 0 → x &&& 0x04 = 0 := by decide +kernel

/-- A filled message object is sent as the frame of the application. -/
theorem filled_bus (f : Frame) (h : Plain f) : (filled f).toBus = onBus f := by
  obtain ⟨h8, hf⟩ := h
  by_cases hx : f.flags &&& 0x01 ≠ 0
  · have hb := (flag0 _).1 hx
    obtain ⟨n1, n2⟩ := hf hb
    have n2' : ¬ (f.flags &&& 0x04 ≠ 0) := fun h => n2 ((flag2 _).1 h)
    obtain ⟨c1, c2, c3⟩ := cd_ext f.len h8
    have e1 := and_ff f.id 21
    have e2 := and_ff f.id 13
    have e3 := and_ff f.id 5
    have e4 := low_shift f.id 5 3 (by omega)
    have e5 := mul8 _ (by rw [e4]; omega)
    have e4' : (((f.id &&& 0x1F) <<< 3).setWidth 8 : U8).toNat = f.id.toNat % 2 ^ 5 * 2 ^ 3 := e4
    have e5' : (((f.id &&& 0x1F) <<< 3).setWidth 8 : U8) &&& 0x04 = 0 := e5
    simp only [Mob.toBus, filled, onBus, if_pos hx, if_neg n2', hb, if_true, c2, c3, e5', e1, e2, e3, e4', n1, take_bytes f h8, ne_eq, not_true_eq_false, not_false_eq_true, if_false, decide_true, decide_false,
      Bool.false_eq_true, Bool.not_eq_true] at *
    simp only [n1, BusFrame.mk.injEq, true_and, and_true, Bool.false_eq_true, if_false]
    have := f.id.isLt
    omega
  · have hb : f.flags.getLsbD 0 = false := by
      cases hc : f.flags.getLsbD 0
      · rfl
      · exact absurd ((flag0 _).2 hc) hx
    obtain ⟨c1, c2, c3⟩ := cd_std f.len h8
    have e4 : (((f.id &&& 0x07) <<< 5).setWidth 8 : U8).toNat = f.id.toNat % 2 ^ 3 * 2 ^ 5 := low_shift f.id 3 5 (by omega)
    have e1 : ((f.id >>> 3).setWidth 8 : U8).toNat = f.id.toNat / 2 ^ 3 % 2 ^ 8 := by
      rw [BitVec.toNat_setWidth, BitVec.toNat_ushiftRight, Nat.shiftRight_eq_div_pow]
    have hid : f.id.toNat / 2 ^ 3 % 2 ^ 8 * 8 + f.id.toNat % 2 ^ 3 * 2 ^ 5 / 32 = f.id.toNat % 2 ^ 11 := by omega
    by_cases hr : f.flags &&& 0x02 ≠ 0
    · have hr' := (flag1 _).1 hr
      simp only [Mob.toBus, filled, onBus, if_neg hx, if_pos hr, hb, hr', c2, c3, e1, e4, hid]
      simp
    · have hr' : f.flags.getLsbD 1 = false := by
        cases hc : f.flags.getLsbD 1
        · rfl
        · exact absurd ((flag1 _).2 hc) hr
      simp only [Mob.toBus, filled, onBus, if_neg hx, if_neg hr, hb, hr', c2, c3, e1, e4, hid, take_bytes f h8]
      simp

theorem filled_pending (f : Frame) (h : f.len.toNat ≤ 8) : (filled f).cd &&& 0xC0 = 0x40 ∧ (filled f).en = true ∧ (filled f).st = 0 := by
  refine ⟨?_, rfl, rfl⟩
  simp only [filled]
  split
  · exact (cd_ext f.len h).1
  · exact (cd_std f.len h).1

/-! ### Lists of message objects -/

theorem filter_set_off {α : Type} (p : α → Bool) : ∀ (l : List α) (k : Nat) (hk : k < l.length) (a : α), p l[k] = true → p a = false →
    (l.filter p).Perm (l[k] :: (l.set k a).filter p)
  | x :: l, 0, _, a, h1, h2 => by
    simp only [List.getElem_cons_zero] at h1
    simp [List.filter_cons, h1, h2]
  | x :: l, k + 1, hk, a, h1, h2 => by
    simp only [List.getElem_cons_succ] at h1
    have := filter_set_off p l k (by simpa using hk) a h1 h2
    simp only [List.set_cons_succ, List.filter_cons, List.getElem_cons_succ]
    split
    · exact (this.cons x).trans (List.Perm.swap ..)
    · exact this

theorem filter_set_on {α : Type} (p : α → Bool) : ∀ (l : List α) (k : Nat) (hk : k < l.length) (a : α), p l[k] = false → p a = true →
    ((l.set k a).filter p).Perm (a :: l.filter p)
  | x :: l, 0, _, a, h1, h2 => by
    simp only [List.getElem_cons_zero] at h1
    simp [List.filter_cons, h1, h2]
  | x :: l, k + 1, hk, a, h1, h2 => by
    simp only [List.getElem_cons_succ] at h1
    have := filter_set_on p l k (by simpa using hk) a h1 h2
    simp only [List.set_cons_succ, List.filter_cons]
    split
    · exact (this.cons x).trans (List.Perm.swap ..)
    · exact this

theorem filter_set_none {α : Type} (p : α → Bool) : ∀ (l : List α) (k : Nat) (hk : k < l.length) (a : α), p l[k] = false → p a = false →
    (l.set k a).filter p = l.filter p
  | x :: l, 0, _, a, h1, h2 => by
    simp only [List.getElem_cons_zero] at h1
    simp [List.filter_cons, h1, h2]
  | x :: l, k + 1, hk, a, h1, h2 => by
    simp only [List.getElem_cons_succ] at h1
    have := filter_set_none p l k (by simpa using hk) a h1 h2
    simp only [List.set_cons_succ, List.filter_cons, this]

/-! ### Invariant -/

/-- A message object for transmission: free, waiting or done. -/
inductive Slot (m : Mob) : Prop where
  | free (h1 : m.cd &&& 0xC0 = 0) (h2 : m.en = false)
  | wait (h1 : m.cd &&& 0xC0 = 0x40) (h2 : m.en = true) (h3 : m.st = 0)
  | sent (h1 : m.cd &&& 0xC0 = 0x40) (h2 : m.en = false) (h3 : m.st &&& 0x40 ≠ 0)

/-- Message object 0 waits for a frame. -/
structure Listens (m : Mob) : Prop where
  st : m.st = 0
  cd : m.cd = 0x80
  en : m.en = true
  idm1 : m.idm1 = 0
  idm2 : m.idm2 = 0
  idm3 : m.idm3 = 0
  idm4 : m.idm4 = 0

/-- The frames which wait for their transmission. -/
def waiting (s : State) : List BusFrame := (s.mobs.toList.filter Mob.pending).map Mob.toBus

structure Inv (x : State × Trace) : Prop where
  on : x.1.on = true
  slot : ∀ (k : Nat) (h : k < 15), k ≠ 0 → Slot x.1.mobs[k]
  mob0 : (Listens x.1.mobs[0] ∧ x.2.stored = x.2.got.map onBus) ∨
    ∃ m b, Listens m ∧ Valid b ∧ x.1.mobs[0] = m.received b ∧ x.2.stored = x.2.got.map onBus ++ [b]
  perm : (x.2.wire ++ waiting x.1).Perm (x.2.taken.map onBus)

theorem received_cd : ∀ (e : Bool) (d : U8), d.toNat ≤ 8 → ((0x80 &&& 0xE0 : U8) ||| (if e then 0x10 else 0) ||| (d &&& 0x0F)) &&& 0xC0 = 0x80 ∧
    (((0x80 &&& 0xE0 : U8) ||| (if e then 0x10 else 0) ||| (d &&& 0x0F)) &&& 0x10 ≠ 0 ↔ e = true) ∧
    ((0x80 &&& 0xE0 : U8) ||| (if e then 0x10 else 0) ||| (d &&& 0x0F)) &&& 0x0F = d := by decide +kernel

theorem Inv.mob0_off {x : State × Trace} (h : Inv x) : x.1.mobs[0].pending = false := by
  rcases h.mob0 with ⟨h, _⟩ | ⟨m, b, h, _, e, _⟩
  · simp [Mob.pending, h.cd]
  · rw [e]; simp [Mob.pending, Mob.received]

theorem Slot.pending {m : Mob} (h : Slot m) : m.pending = true ↔ m.cd &&& 0xC0 ≠ 0 ∧ m.st &&& 0x40 = 0 := by
  rcases h with ⟨h1, h2⟩ | ⟨h1, h2, h3⟩ | ⟨h1, h2, h3⟩
  · simp only [Mob.pending, h1, h2]; simp
  · simp only [Mob.pending, h1, h2, h3]; decide
  · simp only [Mob.pending, h1, h2, h3]; simp

theorem or40_st : ∀ x : U8, (x ||| 0x40) &&& 0x40 ≠ 0 := by decide +kernel

/-- A transmission. -/
theorem Inv.tx {x : State × Trace} (h : Inv x) : Inv ((tx x.1).1, { x.2 with wire := x.2.wire ++ (tx x.1).2.toList }) ∧
    ((tx x.1).2 = none → waiting x.1 = []) ∧ (waiting x.1).length - 1 = (waiting (tx x.1).1).length := by
  unfold Driver.CanDrv.tx
  rw [if_pos h.on]
  cases hf : (List.finRange 15).find? (fun k => x.1.mobs[k].pending) with
  | none =>
    have hw : waiting x.1 = [] := by
      simp only [waiting, List.map_eq_nil_iff, List.filter_eq_nil_iff]
      intro m hm
      obtain ⟨j, hj, e⟩ := List.getElem_of_mem hm
      have hj' : j < 15 := by simpa using hj
      have := List.find?_eq_none.1 hf ⟨j, hj'⟩ (List.mem_finRange _)
      rw [← e]
      simpa using this
    refine ⟨?_, fun _ => hw, by simp [hw]⟩
    simpa using h
  | some k =>
    have hp := List.find?_some hf
    have hk0 : k.val ≠ 0 := fun e => by
      have := h.mob0_off
      have hk : k = 0 := Fin.ext e
      subst hk
      rw [show x.1.mobs[(0 : Fin 15)] = x.1.mobs[0] from rfl, this] at hp
      cases hp
    have hs := h.slot k.val k.isLt hk0
    have hperm : (waiting x.1).Perm (x.1.mobs[k].toBus :: waiting { x.1 with mobs := x.1.mobs.set k { x.1.mobs[k] with st := x.1.mobs[k].st ||| 0x40, en := false } }) := by
      have := (filter_set_off Mob.pending x.1.mobs.toList k.val (by simp) { x.1.mobs[k] with st := x.1.mobs[k].st ||| 0x40, en := false } (by simpa using hp) rfl).map Mob.toBus
      simpa [waiting, Vector.toList_set] using this
    refine ⟨⟨h.on, fun j hj hj0 => ?_, ?_, ?_⟩, fun e => (by cases e), ?_⟩
    · show Slot (x.1.mobs.set k.val _)[j]
      rw [Vector.getElem_set]
      split
      · refine .sent ?_ rfl (or40_st _)
        have hp' : (x.1.mobs[k.val].en && (x.1.mobs[k.val].cd &&& 0xC0 == 0x40)) = true := hp
        simp only [Bool.and_eq_true, beq_iff_eq] at hp'
        exact hp'.2
      · exact h.slot j hj hj0
    · show (Listens (x.1.mobs.set k.val _)[0] ∧ _) ∨ ∃ m b, Listens m ∧ Valid b ∧ (x.1.mobs.set k.val _)[0] = m.received b ∧ _
      rw [Vector.getElem_set_ne _ _ hk0]
      exact h.mob0
    · refine List.Perm.trans ?_ h.perm
      simp only [Option.toList, List.append_assoc]
      exact List.Perm.append_left _ hperm.symm
    · rw [hperm.length_eq]; simp

theorem Inv.txs : ∀ (n : Nat) {x : State × Trace} (_ : Inv x), Inv ((txs n x.1).1, { x.2 with wire := x.2.wire ++ (txs n x.1).2 })
  | 0, x, h => by simpa [Driver.CanDrv.txs] using h
  | n + 1, x, h => by
    have := Inv.txs n h.tx.1
    simpa [Driver.CanDrv.txs] using this

/-- A message object is not enabled by the controller. -/
theorem tx_mob (s : State) (k : Nat) (hk : k < 15) : ((tx s).1.mobs[k] = s.mobs[k] ∨ (s.mobs[k].pending = true ∧ (tx s).1.mobs[k].pending = false)) := by
  unfold tx
  split
  · split
    · rename_i k' hf
      simp only [Vector.getElem_set]
      by_cases e : k'.val = k
      · subst e
        refine Or.inr ⟨by simpa using List.find?_some hf, ?_⟩
        simp [Mob.pending]
      · left; simp [Vector.getElem_set_ne, e]
    · exact Or.inl rfl
  · exact Or.inl rfl

theorem txs_pending : ∀ (n : Nat) (s : State) (k : Nat) (hk : k < 15), (txs n s).1.mobs[k].pending = true → s.mobs[k].pending = true
  | 0, _, _, _, h => h
  | n + 1, s, k, hk, h => by
    have h := txs_pending n (tx s).1 k hk h
    rcases tx_mob s k hk with e | ⟨e, _⟩
    · rwa [e] at h
    · exact e

/-- The search for a free message object. -/
theorem search_spec (hw : Nat → Nat) (k : Nat) (x : State × Trace) (hk : k ≠ 0) (h : Inv x) (r : Option (Fin 15) × State × List BusFrame)
    (hr : search hw k x.1 = r) :
    Inv (r.2.1, { x.2 with wire := x.2.wire ++ r.2.2 }) ∧
    (∀ i, r.1 = some i → i.val ≠ 0 ∧ r.2.1.mobs[i.val].pending = false) ∧
    (r.1 = none → ∀ (j : Nat) (hj : j < 15), k ≤ j → x.1.mobs[j].pending = true) := by
  unfold search at hr
  by_cases hlt : k < 15
  · rw [dif_pos hlt] at hr
    have hi := Inv.txs (hw k) h
    have hs := hi.slot k hlt hk
    have hp := hs.pending
    by_cases c1 : (txs (hw k) x.1).1.mobs[k].cd &&& 0xC0 = 0
    · simp only [if_pos c1] at hr
      subst hr
      refine ⟨hi, fun i e => ?_, fun e => (by cases e)⟩
      cases e
      refine ⟨hk, ?_⟩
      cases hq : (txs (hw k) x.1).1.mobs[k].pending
      · rfl
      · exact absurd c1 (hp.1 hq).1
    · by_cases c2 : (txs (hw k) x.1).1.mobs[k].st &&& 0x40 ≠ 0
      · simp only [if_neg c1, if_pos c2] at hr
        subst hr
        refine ⟨hi, fun i e => ?_, fun e => (by cases e)⟩
        cases e
        refine ⟨hk, ?_⟩
        cases hq : (txs (hw k) x.1).1.mobs[k].pending
        · rfl
        · exact absurd (hp.1 hq).2 c2
      · simp only [if_neg c1, if_neg c2] at hr
        subst hr
        obtain ⟨a1, a2, a3⟩ := search_spec hw (k + 1) _ (by omega) hi _ rfl
        refine ⟨by simpa using a1, a2, fun e j hj hkj => ?_⟩
        by_cases hjk : j = k
        · subst hjk
          exact txs_pending _ _ _ _ (hp.2 ⟨c1, Decidable.not_not.1 c2⟩)
        · exact txs_pending _ _ _ _ (a3 e j hj (by omega))
  · rw [dif_neg hlt] at hr
    subst hr
    refine ⟨by simpa using h, fun i e => (by cases e), fun _ j hj hkj => by omega⟩
termination_by 15 - k

theorem Inv.count {x : State × Trace} (h : Inv x) : x.2.taken.length = x.2.wire.length + (waiting x.1).length := by
  have := h.perm.length_eq
  simpa using this.symm

theorem toList_split (v : Vector Mob 15) : ∃ l, v.toList = v[0] :: l ∧ l.length = 14 ∧ ∀ m ∈ l, ∃ (j : Nat) (hj : j < 15), 1 ≤ j ∧ m = v[j] := by
  refine ⟨v.toList.tail, ?_, by simp, fun m hm => ?_⟩
  · have : v.toList ≠ [] := by intro e; have := congrArg List.length e; simp at this
    rw [← List.cons_head_tail this]
    congr 1
    rw [List.head_eq_getElem]
    simp
  · obtain ⟨j, hj, e⟩ := List.getElem_of_mem hm
    have hj' : j + 1 < 15 := by simp at hj; omega
    refine ⟨j + 1, hj', by omega, ?_⟩
    rw [← e]
    simp

theorem Inv.waiting_le {x : State × Trace} (h : Inv x) : (waiting x.1).length ≤ 14 := by
  obtain ⟨l, h1, h2, h3⟩ := toList_split x.1.mobs
  rw [waiting, h1, List.length_map, List.filter_cons, if_neg (by rw [h.mob0_off]; decide), ← h2]
  exact List.length_filter_le ..

theorem Inv.full {x : State × Trace} (h : Inv x) : (waiting x.1).length = 14 ↔ ∀ (j : Nat) (hj : j < 15), 1 ≤ j → x.1.mobs[j].pending = true := by
  obtain ⟨l, h1, h2, h3⟩ := toList_split x.1.mobs
  rw [waiting, h1, List.length_map, List.filter_cons, if_neg (by rw [h.mob0_off]; decide), ← h2, List.length_filter_eq_length_iff]
  constructor
  · intro hl j hj hj1
    refine hl _ ?_
    have hm : x.1.mobs[j] ∈ x.1.mobs.toList := by simp
    have e : x.1.mobs.toList[j]'(by simpa using hj) = x.1.mobs[j] := by simp
    rw [← e]
    simp only [h1]
    rw [List.getElem_cons, dif_neg (by omega)]
    exact List.getElem_mem _
  · intro hl m hm
    obtain ⟨j, hj, h1, rfl⟩ := h3 m hm
    exact hl j hj h1

/-- A frame is handed over. -/
theorem Inv.send {x : State × Trace} (h : Inv x) (f : Frame) (hw : Nat → Nat) (hf : Plain f) :
    ∃ r, sendFrame f hw x.1 = some r ∧
      Inv (r.2.1, { x.2 with taken := if r.1 = .ok then x.2.taken ++ [f] else x.2.taken, wire := x.2.wire ++ r.2.2 }) ∧
      (r.1 = .ok ∨ r.1 = .full) ∧ (r.1 = .full → (waiting x.1).length = 14) := by
  unfold sendFrame getFreeMob
  rcases hs : search hw 1 x.1 with ⟨o, s', out⟩
  obtain ⟨a1, a2, a3⟩ := search_spec hw 1 x (by omega) h _ hs
  cases o with
  | none => exact ⟨_, rfl, by simpa using a1, Or.inr rfl, fun _ => h.full.2 (a3 rfl)⟩
  | some k =>
    obtain ⟨k0, kp⟩ := a2 k rfl
    simp only [if_pos hf.1]
    refine ⟨_, rfl, ?_, Or.inl rfl, fun e => (by cases e)⟩
    simp only [if_true]
    have e : (withMob k (fill f) s') = { s' with mobs := s'.mobs.set k (filled f) } := by
      simp only [withMob, fill_eq f hf.1]
    rw [e]
    obtain ⟨p1, p2, p3⟩ := filled_pending f hf.1
    refine ⟨a1.on, fun j hj hj0 => ?_, ?_, ?_⟩
    · show Slot (s'.mobs.set k.val _)[j]
      rw [Vector.getElem_set]
      split
      · exact .wait p1 p2 p3
      · exact a1.slot j hj hj0
    · show (Listens (s'.mobs.set k.val _)[0] ∧ _) ∨ ∃ m b, Listens m ∧ Valid b ∧ (s'.mobs.set k.val _)[0] = m.received b ∧ _
      rw [Vector.getElem_set_ne _ _ k0]
      exact a1.mob0
    · have hperm : (waiting { s' with mobs := s'.mobs.set k (filled f) }).Perm (onBus f :: waiting s') := by
        have := (filter_set_on Mob.pending s'.mobs.toList k.val (by simp) (filled f) (by simpa using kp) (by rw [Mob.pending, p1, p2]; decide)).map Mob.toBus
        simpa [waiting, Vector.toList_set, filled_bus f hf] using this
      have hp := a1.perm
      simp only [List.map_append, List.map_cons, List.map_nil] at hp ⊢
      refine (List.Perm.append_left _ hperm).trans ?_
      refine List.perm_middle.trans ?_
      exact (hp.cons _).trans (List.perm_append_singleton _ _).symm

theorem accepts_all {m : Mob} (h : Listens m) (b : BusFrame) : m.accepts b = true := by
  simp [Mob.accepts, h.idm1, h.idm2, h.idm3, h.idm4]

/-- A frame comes over the bus. -/
theorem Inv.rx {x : State × Trace} (h : Inv x) (b : BusFrame) (hb : Valid b) :
    Inv ((rx b x.1).1, if (rx b x.1).2 then { x.2 with stored := x.2.stored ++ [b] } else x.2) ∧ ((rx b x.1).2 = true ↔ x.2.stored = x.2.got.map onBus) := by
  unfold Driver.CanDrv.rx
  rcases h.mob0 with ⟨hl, hst⟩ | ⟨m, b', hl, hv, e, hst⟩
  · have c : x.1.on = true ∧ x.1.mobs[0].en = true ∧ x.1.mobs[0].cd &&& 0xC0 = 0x80 ∧ x.1.mobs[0].accepts b = true :=
      ⟨h.on, hl.en, by rw [hl.cd]; decide, accepts_all hl b⟩
    simp only [if_pos c]
    refine ⟨⟨h.on, fun j hj hj0 => ?_, ?_, ?_⟩, by simp [hst]⟩
    · show Slot (x.1.mobs.set 0 _)[j]
      rw [Vector.getElem_set_ne _ _ (fun e => hj0 e.symm)]
      exact h.slot j hj hj0
    · right
      exact ⟨x.1.mobs[0], b, hl, hb, by simp, by simp [hst]⟩
    · have hp := h.perm
      have : waiting { x.1 with mobs := x.1.mobs.set 0 (x.1.mobs[0].received b) } = waiting x.1 := by
        simp only [waiting, Vector.toList_set]
        rw [filter_set_none]
        · simp
        · simpa using h.mob0_off
        · simp [Mob.pending, Mob.received]
      simpa [this] using hp
  · have c : ¬ (x.1.on = true ∧ x.1.mobs[0].en = true ∧ x.1.mobs[0].cd &&& 0xC0 = 0x80 ∧ x.1.mobs[0].accepts b = true) := by
      rw [e]; simp [Mob.received]
    simp only [if_neg c]
    exact ⟨h, by simp [hst]⟩

theorem or20_st : ∀ x : U8, x = 0 → ¬ ((x ||| 0x20) &&& 0x20 = 0) := by decide +kernel

theorem tag_rtr (b : BusFrame) : ((tagOf b).2.2.2 &&& 0x04 ≠ 0) ↔ b.rtr = true := by
  have key : ∀ x : U8, (x.toNat % 8 = 0 → ¬ (x ||| 0 : U8) &&& 0x04 ≠ 0) ∧ (x ||| 0x04) &&& 0x04 ≠ 0 := by decide +kernel
  have h8 : (BitVec.ofNat 8 (b.id * 8)).toNat % 8 = 0 := by rw [BitVec.toNat_ofNat]; omega
  unfold tagOf
  cases b.ext <;> cases b.rtr <;> simp only [Bool.false_eq_true, if_false, if_true, iff_true, iff_false]
  · decide
  · decide
  · exact (key _).1 h8
  · exact (key _).2

theorem tag_id4 : ∀ (x r : U8), x.toNat % 8 = 0 → r = 0 ∨ r = 0x04 → (((x ||| r) >>> 3) &&& 0x1F).toNat = x.toNat / 8 := by
  intro x r h hr
  have key : ∀ x : U8, ((((x ||| 0) >>> 3) &&& 0x1F).toNat = x.toNat / 8) ∧ (x.toNat % 8 = 0 → (((x ||| 0x04) >>> 3) &&& 0x1F).toNat = x.toNat / 8) := by decide +kernel
  rcases hr with rfl | rfl
  · exact (key x).1
  · exact (key x).2 h

/-- The identifier which is read is the one of the frame on the bus. -/
theorem read_id (b : BusFrame) (hb : b.id < if b.ext then 2 ^ 29 else 2 ^ 11) :
    (if b.ext = true then
        (((tagOf b).1.setWidth 32 : U32) <<< 21) + (((tagOf b).2.1.setWidth 32 : U32) <<< 13) + (((tagOf b).2.2.1.setWidth 32 : U32) <<< 5) +
          ((((tagOf b).2.2.2 >>> 3) &&& 0x1F).setWidth 32 : U32)
      else (((tagOf b).1.setWidth 32 : U32) <<< 3) + ((((tagOf b).2.1 >>> 5) &&& 0x07).setWidth 32 : U32)).toNat = b.id := by
  by_cases he : b.ext = true
  · rw [if_pos he] at hb ⊢
    simp only [tagOf, he, if_true]
    have e4 := tag_id4 (BitVec.ofNat 8 (b.id * 8)) (if b.rtr = true then 0x04 else 0) (by rw [BitVec.toNat_ofNat]; omega) (by cases b.rtr <;> simp)
    simp only [BitVec.toNat_add, BitVec.toNat_shiftLeft, BitVec.toNat_setWidth, e4, BitVec.toNat_ofNat, Nat.shiftLeft_eq]
    omega
  · rw [if_neg he] at hb ⊢
    simp only [tagOf, if_neg he]
    have key : ∀ x : U8, ((x >>> 5) &&& 0x07).toNat = x.toNat / 32 := by decide +kernel
    simp only [BitVec.toNat_add, BitVec.toNat_shiftLeft, BitVec.toNat_setWidth, key, BitVec.toNat_ofNat, Nat.shiftLeft_eq]
    omega

/-- Reading a received frame. -/
theorem read_received (s : State) (m : Mob) (b : BusFrame) (old : Frame) (hm0 : m.st = 0) (hm1 : m.cd = 0x80) (hb : Valid b) (e : s.mobs[0] = m.received b) :
    ∃ g s', readFrame old s = some (.ok, g, s') ∧ onBus g = b ∧ s'.on = s.on ∧ s'.mobs = s.mobs.set 0 { empty with cd := 0x80, en := true } := by
  obtain ⟨hid, h8, hd⟩ := hb
  obtain ⟨c1, c2, c3⟩ := received_cd b.ext b.dlc h8
  unfold readFrame
  have hc : (s.mobs[0].cd &&& 0x0F) = b.dlc := by rw [e]; simp only [Mob.received, hm1]; exact c3
  have hx : (s.mobs[0].cd &&& 0x10 ≠ 0) ↔ b.ext = true := by rw [e]; simp only [Mob.received, hm1]; exact c2
  have hr : (s.mobs[0].idt4 &&& 0x04 ≠ 0) ↔ b.rtr = true := by rw [e]; exact tag_rtr b
  have hst : ¬ s.mobs[0].st &&& 0x20 = 0 := by rw [e]; exact or20_st _ hm0
  simp only [if_neg hst, hc, if_pos h8]
  have hg : ∀ g : Frame, g.flags = (if b.ext = true then (if b.rtr = true then (0x02 : U8) else 0) ||| 0x01 else if b.rtr = true then 0x02 else 0) → g.id.toNat = b.id → g.len = b.dlc →
      (b.rtr = false → g.byte.toList.take b.dlc.toNat = b.data) → onBus g = b := by
    intro g g1 g2 g3 g4
    have hflags : ∀ (p q : Bool), ((if q = true then (if p = true then (0x02 : U8) else 0) ||| 0x01 else if p = true then 0x02 else 0) : U8).getLsbD 0 = q ∧
        ((if q = true then (if p = true then (0x02 : U8) else 0) ||| 0x01 else if p = true then 0x02 else 0) : U8).getLsbD 1 = p := by decide
    obtain ⟨f1, f2⟩ := hflags b.rtr b.ext
    rw [← g1] at f1 f2
    unfold onBus
    rw [f1, f2, g2, g3]
    obtain ⟨ext, rtr, id, dlc, data⟩ := b
    simp only [BusFrame.mk.injEq, true_and]
    dsimp only at hid hd g4
    refine ⟨?_, ?_⟩
    · cases ext
      · rw [if_neg (by decide)] at hid ⊢; exact Nat.mod_eq_of_lt hid
      · rw [if_pos rfl] at hid ⊢; exact Nat.mod_eq_of_lt hid
    · cases rtr
      · exact g4 rfl
      · exact (List.length_eq_zero_iff.1 hd).symm
  refine ⟨_, _, rfl, hg _ ?_ ?_ rfl ?_, rfl, ?_⟩
  · simp only [hx, hr]
  · have hid' := read_id b hid
    have t1 : s.mobs[0].idt1 = (tagOf b).1 := by rw [e]; rfl
    have t2 : s.mobs[0].idt2 = (tagOf b).2.1 := by rw [e]; rfl
    have t3 : s.mobs[0].idt3 = (tagOf b).2.2.1 := by rw [e]; rfl
    have t4 : s.mobs[0].idt4 = (tagOf b).2.2.2 := by rw [e]; rfl
    simp only [hx, t1, t2, t3, t4]
    exact hid'
  · have hmsg : s.mobs[0].msg = store b m.msg := by rw [e]; rfl
    simp only [hmsg]
    intro hr
    simp only [hr, Bool.false_eq_true, if_false] at hd
    apply List.ext_getElem
    · simp; omega
    · intro j h1 h2
      simp only [List.getElem_take, Vector.getElem_toList, Vector.getElem_ofFn]
      rw [if_pos (by omega)]
      simp only [store, Fin.getElem_fin, Vector.getElem_ofFn]
      rw [dif_pos h2]
  · simp only [withMob, clr_eq]
    rfl

theorem listens_empty : Listens { empty with cd := 0x80, en := true } := ⟨rfl, rfl, rfl, rfl, rfl, rfl, rfl⟩

/-- A frame is read. -/
theorem Inv.read {x : State × Trace} (h : Inv x) (old : Frame) :
    ∃ r, readFrame old x.1 = some r ∧ Inv (r.2.2, if r.1 = .ok then { x.2 with got := x.2.got ++ [r.2.1] } else x.2) ∧ (r.1 = .ok ∨ r.1 = .empty) ∧
      (r.1 = .empty ↔ x.2.stored = x.2.got.map onBus) := by
  rcases h.mob0 with ⟨hl, hst⟩ | ⟨m, b, hl, hv, e, hst⟩
  · refine ⟨(.empty, old, x.1), ?_, by simpa using h, Or.inr rfl, by simp [hst]⟩
    unfold readFrame
    simp only [hl.st]
    rfl
  · obtain ⟨g, s', r1, r2, r3, r4⟩ := read_received x.1 m b old hl.st hl.cd hv e
    refine ⟨_, r1, ?_, Or.inl rfl, by simp [hst]⟩
    simp only [if_true]
    refine ⟨by rw [r3]; exact h.on, fun j hj hj0 => ?_, ?_, ?_⟩
    · show Slot s'.mobs[j]
      simp only [r4]
      rw [Vector.getElem_set_ne _ _ (fun e => hj0 e.symm)]
      exact h.slot j hj hj0
    · left
      refine ⟨?_, by simp [hst, r2]⟩
      simp only [r4]
      rw [Vector.getElem_set_self]
      exact listens_empty
    · have : waiting s' = waiting x.1 := by
        simp only [waiting, r4, Vector.toList_set]
        rw [filter_set_none]
        · simp
        · simpa using h.mob0_off
        · decide
      rw [this]
      exact h.perm

theorem Inv.move {x : State × Trace} (h : Inv x) (mv : Move) (hm : Ok mv) : ∃ y, move x mv = some y ∧ Inv y := by
  cases mv with
  | send f hw =>
    obtain ⟨r, h1, h2, _⟩ := h.send f hw hm
    exact ⟨_, by simp only [Driver.CanDrv.move, h1]; rfl, h2⟩
  | tx => exact ⟨_, rfl, h.tx.1⟩
  | rx b => exact ⟨_, rfl, (h.rx b hm).1⟩
  | read old =>
    obtain ⟨r, h1, h2, _⟩ := h.read old
    exact ⟨_, by simp only [Driver.CanDrv.move, h1]; rfl, h2⟩

theorem Inv.run : ∀ (l : List Move) {x : State × Trace}, Inv x → (∀ mv ∈ l, Ok mv) → ∃ y, run l x = some y ∧ Inv y
  | [], x, h, _ => ⟨x, rfl, h⟩
  | mv :: l, x, h, hl => by
    obtain ⟨y, h1, h2⟩ := h.move mv (hl mv (List.mem_cons_self ..))
    obtain ⟨z, h3, h4⟩ := Inv.run l h2 (fun mv h => hl mv (List.mem_cons_of_mem _ h))
    exact ⟨z, by simp only [Driver.CanDrv.run, h1]; exact h3, h4⟩

theorem clrMob_eq (k : Fin 15) (s : State) : clrMob k s = { s with mobs := s.mobs.set k empty } := by
  simp only [clrMob, withMob, clr_eq]

theorem clrAll (s : State) : ∀ (j : Nat) (hj : j < 15), (clrAllMob s).mobs[j] = empty := by
  suffices H : ∀ (l : List (Fin 15)) (s : State) (j : Nat) (hj : j < 15), (⟨j, hj⟩ ∈ l ∨ s.mobs[j] = empty) → (l.foldl (fun s k => clrMob k s) s).mobs[j] = empty from
    fun j hj => H _ s j hj (Or.inl (List.mem_finRange _))
  intro l
  induction l with
  | nil => intro s j hj h; rcases h with h | h; exact absurd h (by simp); exact h
  | cons k l ih =>
    intro s j hj h
    rw [List.foldl_cons]
    apply ih
    by_cases e : k.val = j
    · right; rw [clrMob_eq]; simp [e]
    · rcases h with h | h
      · rcases List.mem_cons.1 h with h | h
        · exact absurd (congrArg Fin.val h).symm e
        · exact Or.inl h
      · right; rw [clrMob_eq]; simp only; rw [Vector.getElem_set_ne _ _ e]; exact h

theorem inv_start (s : State) : Inv (start s) := by
  have hk : ∀ (j : Nat) (hj : j < 15), (start s).1.mobs[j] = if j = 0 then { empty with cd := 0x80, en := true } else empty := by
    intro j hj
    have e0 : (start s).1.mobs = (clrAllMob s).mobs.set 0 (putCd ⟨(clrAllMob s).mobs[0], 0⟩ ((clrAllMob s).mobs[0].cd ||| 0x80)).mob := rfl
    simp only [e0]
    by_cases e : j = 0
    · subst e
      rw [if_pos rfl, Vector.getElem_set_self, clrAll s 0 hj]
      rfl
    · rw [if_neg e, Vector.getElem_set_ne _ _ (fun h => e h.symm), clrAll s]
  refine ⟨rfl, fun k h hk0 => ?_, Or.inl ⟨?_, rfl⟩, ?_⟩
  · rw [hk, if_neg hk0]; exact .free rfl rfl
  · rw [hk, if_pos rfl]; exact listens_empty
  · have : waiting (start s).1 = [] := by
      simp only [waiting, List.map_eq_nil_iff, List.filter_eq_nil_iff]
      intro m hm
      obtain ⟨j, hj, e⟩ := List.getElem_of_mem hm
      have hj' : j < 15 := by simpa using hj
      rw [← e, Vector.getElem_toList, hk j hj']
      split <;> decide
    rw [this]
    exact List.Perm.refl _

/-! ### C81: transmission -/

/-- C81 (part): at every point of a history, the frames on the bus are different ones of the frames which the driver has taken, unchanged; a frame is never sent twice
and never overwritten: together with the rest `r` these are exactly the frames taken.  At most 14 wait. -/
theorem C81_once_partial (s : State) (l : List Move) (hl : ∀ mv ∈ l, Ok mv) :
    ∃ y, run l (start s) = some y ∧ ∃ r, (y.2.wire ++ r).Perm (y.2.taken.map onBus) ∧ r.length ≤ 14 := by
  obtain ⟨y, h1, h2⟩ := Inv.run l (inv_start s) hl
  exact ⟨y, h1, _, h2.perm, h2.waiting_le⟩

theorem drain : ∀ (n : Nat) {x : State × Trace}, Inv x → ∃ y, run (List.replicate n .tx) x = some y ∧ Inv y ∧ (waiting y.1).length = (waiting x.1).length - n ∧ y.2.taken = x.2.taken
  | 0, x, h => ⟨x, rfl, h, rfl, rfl⟩
  | n + 1, x, h => by
    obtain ⟨a1, a2, a3⟩ := h.tx
    obtain ⟨y, b1, b2, b3, b4⟩ := drain n a1
    exact ⟨y, b1, b2, by rw [b3, ← a3]; omega, b4⟩

/-- C81 (part): when the bus is free for 14 frames, all frames which the driver has taken are on the bus. -/
theorem C81_sent_partial (s : State) (l : List Move) (hl : ∀ mv ∈ l, Ok mv) :
    ∃ y, run (l ++ List.replicate 14 .tx) (start s) = some y ∧ y.2.wire.Perm (y.2.taken.map onBus) := by
  obtain ⟨y, h1, h2⟩ := Inv.run l (inv_start s) hl
  obtain ⟨z, h3, h4, h5, _⟩ := drain 14 h2
  refine ⟨z, ?_, ?_⟩
  · have : ∀ (l l' : List Move) (x : State × Trace), run (l ++ l') x = (run l x).bind (run l') := by
      intro l l'
      induction l with
      | nil => intro x; rfl
      | cons mv l ih =>
        intro x
        simp only [List.cons_append, run, Option.bind_assoc]
        congr 1
        funext y
        exact ih y
    rw [this, h1]
    exact h3
  · have hw : waiting z.1 = [] := List.length_eq_zero_iff.1 (by rw [h5]; have := h2.waiting_le; omega)
    have := h4.perm
    rwa [hw, List.append_nil] at this

theorem search_stuck (hw : Nat → Nat) (h0 : ∀ k, hw k = 0) (k : Nat) (s : State) (h : ∀ (j : Nat) (hj : j < 15), k ≤ j → Slot s.mobs[j] ∧ s.mobs[j].pending = true) :
    (search hw k s).1 = none := by
  unfold search
  by_cases hk : k < 15
  · rw [dif_pos hk, h0 k]
    obtain ⟨a1, a2⟩ := h k hk (Nat.le_refl _)
    obtain ⟨b1, b2⟩ := a1.pending.1 a2
    simp only [txs, if_neg b1, b2, ne_eq, not_true_eq_false, if_false]
    exact search_stuck hw h0 (k + 1) s (fun j hj hkj => h j hj (by omega))
  · rw [dif_neg hk]
termination_by 15 - k

/-- C81: a frame is refused only if 14 frames wait for the bus, and it is refused if they do and none is sent during the call. -/
theorem C81_full (s : State) (l : List Move) (hl : ∀ mv ∈ l, Ok mv) (f : Frame) (hf : Plain f) (hw : Nat → Nat) :
    ∃ y r, run l (start s) = some y ∧ sendFrame f hw y.1 = some r ∧ (r.1 = .ok ∨ r.1 = .full) ∧
      (r.1 = .full → y.2.taken.length = y.2.wire.length + 14) ∧
      (y.2.taken.length = y.2.wire.length + 14 → (∀ k, hw k = 0) → r.1 = .full) := by
  obtain ⟨y, h1, h2⟩ := Inv.run l (inv_start s) hl
  obtain ⟨r, h3, h4, h5, h6⟩ := h2.send f hw hf
  refine ⟨y, r, h1, h3, h5, fun e => by rw [h2.count, h6 e], fun e h0 => ?_⟩
  have hp := h2.full.1 (by have := h2.count; omega)
  have := search_stuck hw h0 1 y.1 (fun j hj h1 => ⟨h2.slot j hj (by omega), hp j hj h1⟩)
  unfold sendFrame getFreeMob at h3
  rcases hs : search hw 1 y.1 with ⟨o, s', out⟩
  rw [hs] at h3 this
  subst this
  simp only [Option.some.injEq] at h3
  rw [← h3]

section Witness

/-- A data frame with a 29 bit identifier. -/
def ext (id : U32) (len : U8) (b : U8) : Frame := ⟨id, len, 1, Vector.replicate 8 b⟩

theorem plain_ext (id : U32) (len : U8) (b : U8) (h : len.toNat ≤ 8) : Plain (ext id len b) := ⟨h, fun _ => by simp [ext]⟩

/-- The hypotheses are met: sixteen frames, one of them sent during the search, one received and read. -/
def story : List Move :=
  List.replicate 16 (.send (ext 0x1234567 3 0xAB) (fun k => if k = 4 then 1 else 0)) ++ [.tx, .rx ⟨false, true, 0x123, 5, []⟩, .read (ext 0 0 0), .send ⟨0x7FF, 8, 2, Vector.replicate 8 1⟩ (fun _ => 0)]

example : ∀ mv ∈ story, Ok mv := by
  intro mv h
  simp only [story, List.mem_append, List.mem_replicate, List.mem_cons, List.not_mem_nil, or_false] at h
  rcases h with ⟨_, rfl⟩ | rfl | rfl | rfl | rfl
  · exact plain_ext _ _ _ (by decide)
  · trivial
  · exact ⟨by decide, by decide, by decide⟩
  · trivial
  · exact ⟨by decide, fun h => absurd h (by decide)⟩

end Witness

theorem filled_on (f : Frame) (h : f.len.toNat ≤ 8) : (filled f).pending = true := by
  obtain ⟨p1, p2, _⟩ := filled_pending f h
  rw [Mob.pending, p1, p2]; decide

theorem search_pick (k : Nat) (s : State) (i : Nat) (hi : i < 15) (hki : k ≤ i)
    (hb : ∀ (j : Nat) (hj : j < i), k ≤ j → s.mobs[j].cd &&& 0xC0 ≠ 0 ∧ s.mobs[j].st &&& 0x40 = 0)
    (hf : s.mobs[i].cd &&& 0xC0 = 0 ∨ s.mobs[i].st &&& 0x40 ≠ 0) : search (fun _ => 0) k s = (some ⟨i, hi⟩, s, []) := by
  unfold search
  rw [dif_pos (by omega)]
  by_cases e : k = i
  · subst e
    show (if s.mobs[k].cd &&& 0xC0 = 0 then (some (⟨k, hi⟩ : Fin 15), (s, ([] : List BusFrame))) else if s.mobs[k].st &&& 0x40 ≠ 0 then (some ⟨k, hi⟩, (s, [])) else _) = _
    by_cases c : s.mobs[k].cd &&& 0xC0 = 0
    · rw [if_pos c]
    · rw [if_neg c, if_pos (hf.resolve_left c)]
  · obtain ⟨b1, b2⟩ := hb k (by omega) (Nat.le_refl _)
    simp only [txs, if_neg b1, b2, ne_eq, not_true_eq_false, if_false]
    rw [search_pick (k + 1) s i hi (by omega) (fun j hj hkj => hb j hj (by omega)) hf]
    rfl
termination_by 15 - k

theorem send_pick (f : Frame) (h8 : f.len.toNat ≤ 8) (s : State) (i : Nat) (hi : i < 15) (h1 : 1 ≤ i)
    (hb : ∀ (j : Nat) (hj : j < i), 1 ≤ j → s.mobs[j].cd &&& 0xC0 ≠ 0 ∧ s.mobs[j].st &&& 0x40 = 0)
    (hf : s.mobs[i].cd &&& 0xC0 = 0 ∨ s.mobs[i].st &&& 0x40 ≠ 0) :
    sendFrame f (fun _ => 0) s = some (.ok, { s with mobs := s.mobs.set i (filled f) }, []) := by
  simp only [sendFrame, getFreeMob, search_pick 1 s i hi h1 hb hf, if_pos h8, withMob, fill_eq f h8]

theorem tx_pick (s : State) (i : Nat) (on : s.on = true) (hi : i < 15) (hp : s.mobs[i].pending = true) (hb : ∀ (j : Nat) (hj : j < i), s.mobs[j].pending = false) :
    tx s = ({ s with mobs := s.mobs.set i { s.mobs[i] with st := s.mobs[i].st ||| 0x40, en := false } }, some s.mobs[i].toBus) := by
  have hf : (List.finRange 15).find? (fun k => s.mobs[k].pending) = some ⟨i, hi⟩ := by
    rw [List.find?_eq_some_iff_getElem]
    refine ⟨hp, i, by simpa using hi, by simp, fun j hj => ?_⟩
    simp only [List.getElem_finRange, Bool.not_eq_true']
    exact hb j hj
  unfold tx
  rw [if_pos on]
  simp only [hf]
  rfl

theorem start_mob (s : State) (j : Nat) (hj : j < 15) : (start s).1.mobs[j] = if j = 0 then { empty with cd := 0x80, en := true } else empty := by
  have e0 : (start s).1.mobs = (clrAllMob s).mobs.set 0 (putCd ⟨(clrAllMob s).mobs[0], 0⟩ ((clrAllMob s).mobs[0].cd ||| 0x80)).mob := rfl
  simp only [e0]
  by_cases e : j = 0
  · subst e
    rw [if_pos rfl, Vector.getElem_set_self, clrAll s 0 hj]
    rfl
  · rw [if_neg e, Vector.getElem_set_ne _ _ (fun h => e h.symm), clrAll s]

/-- A state in which only message objects 1 and 2 have been used. -/
def two (v : Vector Mob 15) (m1 m2 : Mob) : State := ⟨(v.set 1 m1).set 2 m2, true⟩

/-- A message object behind its transmission. -/
def done (m : Mob) : Mob := { m with st := m.st ||| 0x40, en := false }

theorem done_off (m : Mob) : (done m).pending = false := by simp [done, Mob.pending]

theorem two_0 (v : Vector Mob 15) (h : v[0].pending = false) (m1 m2 : Mob) : (two v m1 m2).mobs[0].pending = false := by
  simp only [two]
  rw [Vector.getElem_set_ne _ _ (by decide), Vector.getElem_set_ne _ _ (by decide), h]
theorem two_1 (v : Vector Mob 15) (m1 m2 : Mob) : (two v m1 m2).mobs[1] = m1 := by
  simp only [two]
  rw [Vector.getElem_set_ne _ _ (by decide), Vector.getElem_set_self]
theorem two_2 (v : Vector Mob 15) (m1 m2 : Mob) : (two v m1 m2).mobs[2] = m2 := by
  simp only [two]
  rw [Vector.getElem_set_self]
theorem two_set1 (v : Vector Mob 15) (m1 m2 m : Mob) : { two v m1 m2 with mobs := (two v m1 m2).mobs.set 1 m } = two v m m2 := by
  simp only [two, State.mk.injEq, and_true]
  apply Vector.ext
  intro j hj
  simp only [Vector.getElem_set]
  by_cases e1 : 1 = j
  · subst e1; simp
  · simp [e1]
theorem two_set2 (v : Vector Mob 15) (m1 m2 m : Mob) : { two v m1 m2 with mobs := (two v m1 m2).mobs.set 2 m } = two v m1 m := by
  simp only [two, State.mk.injEq, and_true]
  apply Vector.ext
  intro j hj
  simp only [Vector.getElem_set]
  by_cases e1 : 2 = j
  · subst e1; simp
  · simp [e1]

theorem start_two (s : State) : ∃ v : Vector Mob 15, start s = (two v empty empty, ⟨[], [], [], []⟩) ∧ v[0].pending = false := by
  have h1 : (start s).1.on = true := rfl
  have h2 : (start s).2 = ⟨[], [], [], []⟩ := rfl
  have h3 := start_mob s
  generalize start s = x at h1 h2 h3
  obtain ⟨⟨v, on⟩, t⟩ := x
  dsimp only at h1 h2 h3
  subst h1 h2
  refine ⟨v, ?_, ?_⟩
  · have : v = (v.set 1 empty).set 2 empty := by
      apply Vector.ext
      intro j hj
      simp only [Vector.getElem_set]
      by_cases e2 : 2 = j
      · subst e2; rw [h3 2 hj]; rfl
      · by_cases e1 : 1 = j
        · subst e1; rw [h3 1 hj]; rfl
        · simp [e1, e2]
    rw [two, ← this]
  · rw [h3 0 (by decide)]; rfl

theorem send_one (v : Vector Mob 15) (f : Frame) (h8 : f.len.toNat ≤ 8) (m1 m2 : Mob) (h : m1.cd &&& 0xC0 = 0 ∨ m1.st &&& 0x40 ≠ 0) :
    sendFrame f (fun _ => 0) (two v m1 m2) = some (.ok, two v (filled f) m2, []) := by
  rw [send_pick f h8 _ 1 (by decide) (by decide) (fun j hj hk => by omega) (by rw [two_1]; exact h), two_set1]

theorem send_two (v : Vector Mob 15) (f : Frame) (h8 : f.len.toNat ≤ 8) (m1 m2 : Mob) (h1 : m1.cd &&& 0xC0 ≠ 0 ∧ m1.st &&& 0x40 = 0) (h : m2.cd &&& 0xC0 = 0 ∨ m2.st &&& 0x40 ≠ 0) :
    sendFrame f (fun _ => 0) (two v m1 m2) = some (.ok, two v m1 (filled f), []) := by
  rw [send_pick f h8 _ 2 (by decide) (by decide) (fun j hj hk => by
    have : j = 1 := by omega
    subst this
    rw [two_1]; exact h1) (by rw [two_2]; exact h), two_set2]

theorem tx_one (v : Vector Mob 15) (h0 : v[0].pending = false) (m1 m2 : Mob) (h : m1.pending = true) : tx (two v m1 m2) = (two v (done m1) m2, some m1.toBus) := by
  rw [tx_pick _ 1 rfl (by decide) (by rw [two_1]; exact h) (fun j hj => by
    have : j = 0 := by omega
    subst this
    exact two_0 v h0 ..), two_1, two_set1]
  rfl

theorem tx_two (v : Vector Mob 15) (h0 : v[0].pending = false) (m1 m2 : Mob) (h1 : m1.pending = false) (h : m2.pending = true) :
    tx (two v m1 m2) = (two v m1 (done m2), some m2.toBus) := by
  rw [tx_pick _ 2 rfl (by decide) (by rw [two_2]; exact h) (fun j hj => by
    by_cases e : j = 0
    · subst e; exact two_0 v h0 ..
    · have : j = 1 := by omega
      subst this
      rw [two_1]; exact h1), two_2, two_set2]
  rfl

/-- C81 does not hold: frames do not go on the bus in the order in which they were handed over: when the first of two frames is on the bus, a third one overtakes the second. -/
theorem C81_order_violated (s : State) (a b c : Frame) (ha : Plain a) (hb : Plain b) (hc : Plain c) :
    ∃ y, run [.send a (fun _ => 0), .send b (fun _ => 0), .tx, .send c (fun _ => 0), .tx, .tx] (start s) = some y ∧
      y.2.taken = [a, b, c] ∧ y.2.wire = [onBus a, onBus c, onBus b] := by
  have f1 : (filled a).cd &&& 0xC0 ≠ 0 ∧ (filled a).st &&& 0x40 = 0 := by
    obtain ⟨p, _, q⟩ := filled_pending a ha.1
    rw [p, q]; decide
  have d1 : (done (filled a)).st &&& 0x40 ≠ 0 := or40_st _
  obtain ⟨v, hs, h0⟩ := start_two s
  rw [hs]
  exact ⟨(two v (done (filled c)) (done (filled b)), ⟨[a, b, c], [onBus a, onBus c, onBus b], [], []⟩), by
    simp only [run, move, send_one v a ha.1 empty empty (Or.inl rfl), send_two v b hb.1 _ empty f1 (Or.inl rfl), tx_one v h0 _ _ (filled_on a ha.1),
      send_one v c hc.1 _ _ (Or.inr d1), tx_one v h0 _ _ (filled_on c hc.1), tx_two v h0 _ _ (done_off _) (filled_on b hb.1), Option.map_some, Option.bind_some,
      filled_bus a ha, filled_bus b hb, filled_bus c hc]
    rfl, rfl, rfl⟩

/-- C81 does not hold: a remote frame with a 29 bit identifier is sent as a data frame. -/
theorem C81_remote_violated (s : State) (f : Frame) (h8 : f.len.toNat ≤ 8) (hf : f.flags = 0x03) :
    ∃ y b, run [.send f (fun _ => 0), .tx] (start s) = some y ∧ y.2.wire = [b] ∧ b.rtr = false ∧ (onBus f).rtr = true := by
  obtain ⟨v, hs, h0⟩ := start_two s
  rw [hs]
  refine ⟨(two v (done (filled f)) empty, ⟨[f], [(filled f).toBus], [], []⟩), (filled f).toBus, ?_, rfl, ?_, ?_⟩
  · simp only [run, move, send_one v f h8 empty empty (Or.inl rfl), tx_one v h0 _ _ (filled_on f h8), Option.map_some, Option.bind_some]
    rfl
  · have e5 : (((f.id &&& 0x1F) <<< 3).setWidth 8 : U8) &&& 0x04 = 0 := mul8 _ (by
      have : (((f.id &&& 0x1F) <<< 3).setWidth 8 : U8).toNat = f.id.toNat % 2 ^ 5 * 2 ^ 3 := low_shift f.id 5 3 (by omega)
      rw [this]; omega)
    simp only [Mob.toBus, filled, hf]
    rw [if_pos (by decide), if_neg (by decide), e5]
    decide
  · simp [onBus, hf]

/-! ### C82: reception -/

/-- C82: frames are read once, in the order in which the controller stored them, unchanged; at most one waits. -/
theorem C82_order (s : State) (l : List Move) (hl : ∀ mv ∈ l, Ok mv) :
    ∃ y, run l (start s) = some y ∧ ∃ r, y.2.stored = y.2.got.map onBus ++ r ∧ r.length ≤ 1 := by
  obtain ⟨y, h1, h2⟩ := Inv.run l (inv_start s) hl
  refine ⟨y, h1, ?_⟩
  rcases h2.mob0 with ⟨_, h⟩ | ⟨_, b, _, _, _, h⟩
  · exact ⟨[], by simpa using h, by simp⟩
  · exact ⟨[b], h, by simp⟩

/-- C82: a frame on the bus is lost only if the frame in front of it has not been read, and the driver delivers a frame if and only if one has been stored which has not been read. -/
theorem C82_lost (s : State) (l : List Move) (hl : ∀ mv ∈ l, Ok mv) (b : BusFrame) (hb : Valid b) (old : Frame) :
    ∃ y r, run l (start s) = some y ∧ ((rx b y.1).2 = true ↔ y.2.stored.length = y.2.got.length) ∧
      readFrame old y.1 = some r ∧ (r.1 = .ok ↔ y.2.got.length < y.2.stored.length) ∧ (r.1 = .ok ∨ r.1 = .empty) := by
  obtain ⟨y, h1, h2⟩ := Inv.run l (inv_start s) hl
  obtain ⟨_, h3⟩ := h2.rx b hb
  obtain ⟨r, h4, _, h6, h7⟩ := h2.read old
  have hl : (y.2.stored = y.2.got.map onBus) ↔ y.2.stored.length = y.2.got.length := by
    rcases h2.mob0 with ⟨_, h⟩ | ⟨_, b, _, _, _, h⟩
    · simp [h]
    · simp [h]
  have hle : y.2.got.length ≤ y.2.stored.length := by
    rcases h2.mob0 with ⟨_, h⟩ | ⟨_, b, _, _, _, h⟩ <;> simp [h]
  refine ⟨y, r, h1, h3.trans hl, h4, ?_, h6⟩
  rw [hl] at h7
  constructor
  · intro e
    have : ¬ y.2.stored.length = y.2.got.length := fun h => by rw [h7.2 h] at e; cases e
    omega
  · intro e
    rcases h6 with h | h
    · exact h
    · have := h7.1 h; omega

theorem onBus_valid (f : Frame) (h : f.len.toNat ≤ 8) : Valid (onBus f) := by
  refine ⟨?_, h, ?_⟩
  · show (if f.flags.getLsbD 0 = true then f.id.toNat % 2 ^ 29 else f.id.toNat % 2 ^ 11) < if f.flags.getLsbD 0 = true then 2 ^ 29 else 2 ^ 11
    split
    · exact Nat.mod_lt _ (by decide)
    · exact Nat.mod_lt _ (by decide)
  · show (if f.flags.getLsbD 1 = true then [] else f.byte.toList.take f.len.toNat).length = if f.flags.getLsbD 1 = true then 0 else f.len.toNat
    split
    · rfl
    · rw [List.length_take, Vector.length_toList]; omega

theorem run_append (l l' : List Move) : ∀ x : State × Trace, run (l ++ l') x = (run l x).bind (run l') := by
  induction l with
  | nil => intro x; rfl
  | cons mv l ih =>
    intro x
    simp only [List.cons_append, run, Option.bind_assoc]
    congr 1
    funext y
    exact ih y

theorem search_out (k : Nat) (s : State) : (search (fun _ => 0) k s).2.2 = [] := by
  unfold search
  split
  · simp only [txs]
    by_cases c : s.mobs[k].cd &&& 0xC0 = 0
    · simp only [c, if_true]
    · by_cases d : s.mobs[k].st &&& 0x40 = 0
      · simp only [c, d, if_false, ne_eq, not_true_eq_false, search_out (k + 1) s, List.append_nil]
      · simp only [c, d, if_false, ne_eq, not_false_eq_true, if_true]
  · rfl
termination_by 15 - k

theorem send_out (f : Frame) (s : State) (r : Ret × State × List BusFrame) (h : sendFrame f (fun _ => 0) s = some r) : r.2.2 = [] := by
  have ho := search_out 1 s
  unfold sendFrame getFreeMob at h
  rcases hs : search (fun _ => 0) 1 s with ⟨o, s', out⟩
  rw [hs] at h ho
  dsimp only at ho
  subst ho
  cases o with
  | none => simp only [Option.some.injEq] at h; rw [← h]
  | some k =>
    simp only at h
    split at h
    · simp only [Option.some.injEq] at h; rw [← h]
    · cases h

/-- C82: from node to node: a frame which a node sends is read by a node which listens, unchanged, behind any history of both. -/
theorem C82_transfer (s s' : State) (l l' : List Move) (hl : ∀ mv ∈ l, Ok mv) (hl' : ∀ mv ∈ l', Ok mv) (f : Frame) (hf : Plain f) (old : Frame) :
    ∃ y y', run (l ++ List.replicate 14 .tx ++ [.send f (fun _ => 0), .tx]) (start s) = some y ∧ y.2.wire.getLast? = some (onBus f) ∧
      run (l' ++ [.read old, .rx (onBus f), .read old]) (start s') = some y' ∧ (y'.2.got.map onBus).getLast? = some (onBus f) := by
  have hA : ∃ y, run (l ++ List.replicate 14 .tx ++ [.send f (fun _ => 0), .tx]) (start s) = some y ∧ y.2.wire.getLast? = some (onBus f) := by
    obtain ⟨x, h1, h2⟩ := Inv.run l (inv_start s) hl
    obtain ⟨z, h3, h4, h5, _⟩ := drain 14 h2
    have hw : waiting z.1 = [] := List.length_eq_zero_iff.1 (by rw [h5]; have := h2.waiting_le; omega)
    obtain ⟨r, r1, r2, r3, r4⟩ := h4.send f (fun _ => 0) hf
    have hok : r.1 = .ok := r3.resolve_right (fun e => by have := r4 e; rw [hw] at this; cases this)
    have ho := send_out f z.1 r r1
    simp only [hok, if_true, ho, List.append_nil] at r2
    have p0 := h4.perm
    rw [hw, List.append_nil] at p0
    have p1 := r2.perm
    simp only [List.map_append, List.map_cons, List.map_nil] at p1
    have p2 : (waiting r.2.1).Perm [onBus f] := (List.perm_append_left_iff z.2.wire).1 (p1.trans (p0.symm.append_right _))
    obtain ⟨t1, t2, t3⟩ := r2.tx
    dsimp only at t1 t2 t3
    have p3 := t1.perm
    have w1 : waiting (tx r.2.1).1 = [] := List.length_eq_zero_iff.1 (by rw [← t3, p2.length_eq]; rfl)
    simp only [w1, List.append_nil, List.map_append, List.map_cons, List.map_nil] at p3
    have p4 : (tx r.2.1).2.toList.Perm [onBus f] := (List.perm_append_left_iff z.2.wire).1 (p3.trans (p0.symm.append_right _))
    have p5 := List.perm_singleton.1 p4
    refine ⟨((tx r.2.1).1, { z.2 with taken := z.2.taken ++ [f], wire := z.2.wire ++ (tx r.2.1).2.toList }), ?_, ?_⟩
    · rw [run_append, run_append, h1, Option.bind_some, h3, Option.bind_some]
      simp only [run, move, r1, Option.map_some, Option.bind_some, hok, if_true, ho, List.append_nil]
    · simp [p5]
  have hB : ∃ y', run (l' ++ [.read old, .rx (onBus f), .read old]) (start s') = some y' ∧ (y'.2.got.map onBus).getLast? = some (onBus f) := by
    obtain ⟨x, h1, h2⟩ := Inv.run l' (inv_start s') hl'
    obtain ⟨x1, a1, a2, a3⟩ : ∃ x1, move x (.read old) = some x1 ∧ Inv x1 ∧ x1.2.stored = x1.2.got.map onBus := by
      obtain ⟨r, r1, r2, r3, r4⟩ := h2.read old
      refine ⟨_, by simp only [move, r1]; rfl, r2, ?_⟩
      rcases r3 with e | e
      · rcases h2.mob0 with ⟨q1, q2⟩ | ⟨m, b, q1, q2, q3, q4⟩
        · rw [r4.2 q2] at e; cases e
        · obtain ⟨g, s1, c1, c2, _⟩ := read_received x.1 m b old q1.st q1.cd q2 q3
          rw [c1, Option.some.injEq] at r1
          subst r1
          simp [q4, c2]
      · simp only [e]
        exact r4.1 e
    obtain ⟨b1, b2⟩ := a2.rx (onBus f) (onBus_valid f hf.1)
    have b3 := b2.2 a3
    rw [b3] at b1
    simp only [if_true] at b1
    obtain ⟨r, r1, r2, r3, r4⟩ := b1.read old
    have hok : r.1 = .ok := r3.resolve_right (fun e => by have := congrArg List.length (r4.1 e); rw [a3] at this; simp at this)
    simp only [hok, if_true] at r2
    refine ⟨(r.2.2, { x1.2 with stored := x1.2.stored ++ [onBus f], got := x1.2.got ++ [r.2.1] }), ?_, ?_⟩
    · rw [run_append, h1, Option.bind_some]
      simp only [run, a1, Option.bind_some]
      simp only [move, Option.bind_some, b3, if_true, r1, Option.map_some, hok]
    · rcases r2.mob0 with ⟨_, q⟩ | ⟨_, b, _, _, _, q⟩
      · simp only at q ⊢
        rw [← q]; simp
      · have := congrArg List.length q
        rw [a3] at this
        simp at this
  obtain ⟨y, y1, y2⟩ := hA
  obtain ⟨y', y1', y2'⟩ := hB
  exact ⟨y, y', y1, y2, y1', y2'⟩

/-! ### C83: filter -/

theorem tag_aligned (b : BusFrame) : ((tagOf b).1 ++ (tagOf b).2.1 ++ (tagOf b).2.2.1 ++ (tagOf b).2.2.2 : U32) = aligned b := by
  have r4 : ∀ (c : Bool) (i : Nat), (if c = true then (0x04 : U32) else 0).getLsbD i = (c && decide (i = 2)) := by
    intro c i
    cases c
    · simp
    · simp only [if_true, Bool.true_and]
      by_cases h : i = 2
      · subst h; decide
      · simp only [h, decide_false]
        by_cases hi : i < 32
        · have : ∀ i : Fin 32, i.val ≠ 2 → (0x04 : U32).getLsbD i.val = false := by decide
          exact this ⟨i, hi⟩ h
        · exact BitVec.getLsbD_of_ge _ _ (by omega)
  have r8 : ∀ (c : Bool) (i : Nat), (if c = true then (0x04 : U8) else 0).getLsbD i = (c && decide (i = 2)) := by
    intro c i
    cases c
    · simp
    · simp only [if_true, Bool.true_and]
      by_cases h : i = 2
      · subst h; decide
      · simp only [h, decide_false]
        by_cases hi : i < 8
        · have : ∀ i : Fin 8, i.val ≠ 2 → (0x04 : U8).getLsbD i.val = false := by decide
          exact this ⟨i, hi⟩ h
        · exact BitVec.getLsbD_of_ge _ _ (by omega)
  apply BitVec.eq_of_getLsbD_eq
  intro i hi
  have e8 : ∀ n : Nat, n * 8 = n * 2 ^ 3 := fun n => rfl
  have e32 : ∀ n : Nat, n * 32 = n * 2 ^ 5 := fun n => rfl
  have d8 : ∀ n : Nat, n / 8 = n / 2 ^ 3 := fun n => rfl
  unfold tagOf aligned
  by_cases he : b.ext = true
  · simp only [if_pos he, BitVec.getLsbD_append, BitVec.getLsbD_or, r4, r8, BitVec.getLsbD_ofNat, e8, Nat.testBit_mul_two_pow, Nat.testBit_div_two_pow]
    by_cases h1 : i < 8
    · simp [h1, hi]
    · by_cases h2 : i < 16
      · have q : i - 8 < 8 := by omega
        have q3 : 3 ≤ i := by omega
        have q4 : i ≠ 2 := by omega
        simp [h1, hi, q, q3, q4]
        congr 1; omega
      · by_cases h3 : i < 24
        · have q : ¬ i - 8 < 8 := by omega
          have q1 : i - 8 - 8 < 8 := by omega
          have q3 : 3 ≤ i := by omega
          have q4 : i ≠ 2 := by omega
          simp [h1, hi, q, q1, q3, q4]
          congr 1; omega
        · have q : ¬ i - 8 < 8 := by omega
          have q1 : ¬ i - 8 - 8 < 8 := by omega
          have q2 : i - 8 - 8 - 8 < 8 := by omega
          have q3 : 3 ≤ i := by omega
          have q4 : i ≠ 2 := by omega
          simp [h1, hi, q, q1, q2, q3, q4]
          congr 1; omega
  · simp only [if_neg he, BitVec.getLsbD_append, BitVec.getLsbD_or, r4, r8, BitVec.getLsbD_ofNat, e32, d8, Nat.testBit_mul_two_pow, Nat.testBit_div_two_pow]
    by_cases h1 : i < 8
    · have q : ¬ 21 ≤ i := by omega
      simp [h1, hi, q]
    · by_cases h2 : i < 16
      · have q : i - 8 < 8 := by omega
        have q3 : ¬ 21 ≤ i := by omega
        have q4 : i ≠ 2 := by omega
        simp [h1, hi, q, q3, q4]
      · by_cases h3 : i < 24
        · have q : ¬ i - 8 < 8 := by omega
          have q1 : i - 8 - 8 < 8 := by omega
          have q4 : i ≠ 2 := by omega
          by_cases h5 : 21 ≤ i
          · have q5 : 5 ≤ i - 8 - 8 := by omega
            have q6 : i - 8 - 8 - 5 = i - 21 := by omega
            simp [h1, hi, q, q1, q4, h5, q5, q6]
          · have q5 : ¬ 5 ≤ i - 8 - 8 := by omega
            simp [h1, hi, q, q1, q4, h5, q5]
        · have q : ¬ i - 8 < 8 := by omega
          have q1 : ¬ i - 8 - 8 < 8 := by omega
          have q2 : i - 8 - 8 - 8 < 8 := by omega
          have q3 : 21 ≤ i := by omega
          have q4 : i ≠ 2 := by omega
          simp [h1, hi, q, q1, q2, q3, q4]
          congr 1; omega

theorem append_zero {n m : Nat} (x : BitVec n) (y : BitVec m) : x ++ y = 0#(n + m) ↔ x = 0#n ∧ y = 0#m := by
  constructor
  · intro h
    have hb : ∀ i, (x ++ y).getLsbD i = false := fun i => by rw [h]; simp
    constructor
    · apply BitVec.eq_of_getLsbD_eq
      intro i hi
      have := hb (m + i)
      rw [BitVec.getLsbD_append, if_neg (by omega), Nat.add_sub_cancel_left] at this
      simpa using this
    · apply BitVec.eq_of_getLsbD_eq
      intro i hi
      have := hb i
      rw [BitVec.getLsbD_append, if_pos hi] at this
      simpa using this
  · rintro ⟨rfl, rfl⟩; simp

/-- Message object 0 behind the start, with a filter and a mask. -/
def tuned (f0 f1 f2 f3 m0 m1 m2 m3 : U8) : Mob := { empty with cd := 0x80, en := true, idt1 := f0, idt2 := f1, idt3 := f2, idt4 := f3, idm1 := m0, idm2 := m1, idm3 := m2, idm4 := m3 }

theorem tuned_cd (f0 f1 f2 f3 m0 m1 m2 m3 : U8) : (tuned f0 f1 f2 f3 m0 m1 m2 m3).cd &&& 0xC0 = 0x80 := by
  show (0x80 : U8) &&& 0xC0 = 0x80
  decide

theorem tuned_mob (s : State) (f0 f1 f2 f3 m0 m1 m2 m3 : U8) :
    (setMask m0 m1 m2 m3 (setFilter f0 f1 f2 f3 (start s).1)).mobs[0] = tuned f0 f1 f2 f3 m0 m1 m2 m3 ∧ (setMask m0 m1 m2 m3 (setFilter f0 f1 f2 f3 (start s).1)).on = true := by
  have h1 : (start s).1.on = true := rfl
  have h3 := start_mob s 0 (by decide)
  generalize start s = x at h1 h3
  rw [if_pos rfl] at h3
  refine ⟨?_, h1⟩
  show (Vector.set (x.1.mobs.set 0 _) 0 _)[0] = _
  rw [Vector.getElem_set_self]
  show { (x.1.mobs.set 0 _)[0] with idm1 := m0, idm2 := m1, idm3 := m2, idm4 := m3 } = _
  rw [Vector.getElem_set_self]
  show { x.1.mobs[0] with idt1 := f0, idt2 := f1, idt3 := f2, idt4 := f3, idm1 := m0, idm2 := m1, idm3 := m2, idm4 := m3 } = _
  rw [h3]
  rfl

theorem accepts_passes (f0 f1 f2 f3 m0 m1 m2 m3 : U8) (b : BusFrame) : (tuned f0 f1 f2 f3 m0 m1 m2 m3).accepts b = true ↔ passes f0 f1 f2 f3 m0 m1 m2 m3 b := by
  have hff : (0xFFFFFFFC : U32) = ((0xFF : U8) ++ (0xFF : U8) ++ (0xFF : U8) ++ (0xFC : U8) : U32) := by decide
  have hm : ∀ x : U8, x &&& 0xFF = x := by decide +kernel
  have h1 : ∀ x : U8, (x &&& 0x01 = 0) ↔ x.getLsbD 0 = false := by decide +kernel
  unfold passes
  rw [← tag_aligned, hff, BitVec.xor_append, BitVec.xor_append, BitVec.xor_append, BitVec.and_append, BitVec.and_append, BitVec.and_append, BitVec.and_append, BitVec.and_append, BitVec.and_append]
  erw [append_zero, append_zero, append_zero]
  have hd : ((tuned f0 f1 f2 f3 m0 m1 m2 m3).cd &&& 0x10 ≠ 0) ↔ False := by
    show ((0x80 : U8) &&& 0x10 ≠ 0) ↔ False
    decide
  simp only [Mob.accepts, hd, decide_false]
  simp only [tuned, hm, Bool.and_eq_true, beq_iff_eq, Bool.or_eq_true, h1]
  refine and_congr Iff.rfl ?_
  cases m3.getLsbD 0 <;> simp

theorem rx_tuned (x : State) (f0 f1 f2 f3 m0 m1 m2 m3 : U8) (t1 : x.mobs[0] = tuned f0 f1 f2 f3 m0 m1 m2 m3) (t2 : x.on = true) (b : BusFrame) :
    (passes f0 f1 f2 f3 m0 m1 m2 m3 b → (rx b x).2 = true ∧ (rx b x).1.mobs[0].en = false) ∧ (¬ passes f0 f1 f2 f3 m0 m1 m2 m3 b → rx b x = (x, false)) := by
  rw [← accepts_passes]
  unfold rx
  rw [t1]
  constructor
  · intro h
    rw [if_pos ⟨t2, rfl, tuned_cd .., h⟩]
    refine ⟨rfl, ?_⟩
    show (x.mobs.set 0 _)[0].en = false
    rw [Vector.getElem_set_self]
    rfl
  · intro h
    rw [if_neg (fun e => h e.2.2.2)]

theorem tx_first (s : State) (h : s.mobs[0].pending = false) : (tx s).1.mobs[0] = s.mobs[0] ∧ (tx s).1.on = s.on := by
  refine ⟨?_, ?_⟩
  · rcases tx_mob s 0 (by decide) with e | ⟨e, _⟩
    · exact e
    · rw [h] at e; cases e
  · unfold tx
    split
    · split <;> rfl
    · rfl

theorem txs_first : ∀ (n : Nat) (s : State), s.mobs[0].pending = false → (txs n s).1.mobs[0] = s.mobs[0] ∧ (txs n s).1.on = s.on
  | 0, _, _ => ⟨rfl, rfl⟩
  | n + 1, s, h => by
    obtain ⟨a1, a2⟩ := tx_first s h
    obtain ⟨b1, b2⟩ := txs_first n (tx s).1 (by rw [a1]; exact h)
    exact ⟨b1.trans a1, b2.trans a2⟩

theorem search_first (hw : Nat → Nat) (k : Nat) (hk : k ≠ 0) (s : State) (h : s.mobs[0].pending = false) (r : Option (Fin 15) × State × List BusFrame) (hr : search hw k s = r) :
    r.2.1.mobs[0] = s.mobs[0] ∧ r.2.1.on = s.on ∧ ∀ i, r.1 = some i → i.val ≠ 0 := by
  unfold search at hr
  by_cases h15 : k < 15
  · rw [dif_pos h15] at hr
    obtain ⟨a1, a2⟩ := txs_first (hw k) s h
    dsimp only at hr
    split at hr
    · subst hr
      exact ⟨a1, a2, fun i e => by cases e; exact hk⟩
    · split at hr
      · subst hr
        exact ⟨a1, a2, fun i e => by cases e; exact hk⟩
      · obtain ⟨b1, b2, b3⟩ := search_first hw (k + 1) (by omega) (txs (hw k) s).1 (by rw [a1]; exact h) _ rfl
        subst hr
        exact ⟨b1.trans a1, b2.trans a2, b3⟩
  · rw [dif_neg h15] at hr
    subst hr
    exact ⟨rfl, rfl, fun i e => by cases e⟩
termination_by 15 - k

theorem send_first (f : Frame) (h8 : f.len.toNat ≤ 8) (hw : Nat → Nat) (s : State) (h : s.mobs[0].pending = false) :
    ∃ r, sendFrame f hw s = some r ∧ r.2.1.mobs[0] = s.mobs[0] ∧ r.2.1.on = s.on := by
  unfold sendFrame getFreeMob
  rcases hs : search hw 1 s with ⟨o, s', out⟩
  obtain ⟨a1, a2, a3⟩ := search_first hw 1 (by decide) s h _ hs
  cases o with
  | none => exact ⟨_, rfl, a1, a2⟩
  | some k =>
    simp only [if_pos h8]
    refine ⟨_, rfl, ?_, a2⟩
    show (Vector.set s'.mobs k.val _)[0] = _
    rw [Vector.getElem_set_ne _ _ (a3 k rfl)]
    exact a1

/-- The frames which come over the bus in a history. -/
def arrivals (l : List Move) : List BusFrame := l.filterMap fun mv => match mv with | .rx b => some b | _ => none

theorem run_deaf : ∀ (l : List Move) (x : State × Trace), x.1.mobs[0].en = false → (∀ mv ∈ l, Ok mv ∧ ∀ old, mv ≠ .read old) → ∃ y, run l x = some y ∧ y.2.stored = x.2.stored
  | [], x, _, _ => ⟨x, rfl, rfl⟩
  | mv :: l, x, h, hl => by
    have hp : x.1.mobs[0].pending = false := by simp [Mob.pending, h]
    have hl' : ∀ mv ∈ l, Ok mv ∧ ∀ old, mv ≠ .read old := fun mv h => hl mv (List.mem_cons_of_mem _ h)
    obtain ⟨hok, hr⟩ := hl mv (List.mem_cons_self ..)
    cases mv with
    | send f hw =>
      obtain ⟨r, r1, r2, _⟩ := send_first f hok.1 hw x.1 hp
      obtain ⟨y, y1, y2⟩ := run_deaf l (r.2.1, { x.2 with taken := if r.1 = .ok then x.2.taken ++ [f] else x.2.taken, wire := x.2.wire ++ r.2.2 }) (by rw [r2]; exact h) hl'
      exact ⟨y, by simp only [run, move, r1, Option.map_some, Option.bind_some]; exact y1, y2⟩
    | tx =>
      obtain ⟨y, y1, y2⟩ := run_deaf l ((tx x.1).1, { x.2 with wire := x.2.wire ++ (tx x.1).2.toList }) (by rw [(tx_first x.1 hp).1]; exact h) hl'
      exact ⟨y, y1, y2⟩
    | rx b =>
      have e : rx b x.1 = (x.1, false) := by
        unfold rx
        rw [if_neg (fun e => by rw [h] at e; cases e.2.1)]
      obtain ⟨y, y1, y2⟩ := run_deaf l x h hl'
      exact ⟨y, by simp only [run, move, e, Option.bind_some]; exact y1, y2⟩
    | read old => exact absurd rfl (hr old)

theorem run_tuned (f0 f1 f2 f3 m0 m1 m2 m3 : U8) : ∀ (l : List Move) (x : State × Trace), x.1.mobs[0] = tuned f0 f1 f2 f3 m0 m1 m2 m3 → x.1.on = true → x.2.stored = [] →
    (∀ mv ∈ l, Ok mv ∧ ∀ old, mv ≠ .read old) → ∃ y, run l x = some y ∧ y.2.stored = ((arrivals l).filter fun b => passes f0 f1 f2 f3 m0 m1 m2 m3 b).take 1
  | [], x, _, _, hs, _ => ⟨x, rfl, hs⟩
  | mv :: l, x, h, ho, hs, hl => by
    have hp : x.1.mobs[0].pending = false := by
      rw [h]
      show ((true : Bool) && ((0x80 : U8) &&& 0xC0 == 0x40)) = false
      decide
    have hl' : ∀ mv ∈ l, Ok mv ∧ ∀ old, mv ≠ .read old := fun mv h => hl mv (List.mem_cons_of_mem _ h)
    obtain ⟨hok, hr⟩ := hl mv (List.mem_cons_self ..)
    cases mv with
    | send f hw =>
      obtain ⟨r, r1, r2, r3⟩ := send_first f hok.1 hw x.1 hp
      obtain ⟨y, y1, y2⟩ := run_tuned f0 f1 f2 f3 m0 m1 m2 m3 l (r.2.1, { x.2 with taken := if r.1 = .ok then x.2.taken ++ [f] else x.2.taken, wire := x.2.wire ++ r.2.2 })
        (by rw [r2]; exact h) (by rw [r3]; exact ho) hs hl'
      exact ⟨y, by simp only [run, move, r1, Option.map_some, Option.bind_some]; exact y1, y2⟩
    | tx =>
      obtain ⟨y, y1, y2⟩ := run_tuned f0 f1 f2 f3 m0 m1 m2 m3 l ((tx x.1).1, { x.2 with wire := x.2.wire ++ (tx x.1).2.toList })
        (by rw [(tx_first x.1 hp).1]; exact h) (by rw [(tx_first x.1 hp).2]; exact ho) hs hl'
      exact ⟨y, y1, y2⟩
    | rx b =>
      obtain ⟨p1, p2⟩ := rx_tuned x.1 f0 f1 f2 f3 m0 m1 m2 m3 h ho b
      have ea : arrivals (.rx b :: l) = b :: arrivals l := rfl
      by_cases hb : passes f0 f1 f2 f3 m0 m1 m2 m3 b
      · obtain ⟨q1, q2⟩ := p1 hb
        obtain ⟨y, y1, y2⟩ := run_deaf l ((rx b x.1).1, { x.2 with stored := x.2.stored ++ [b] }) q2 hl'
        refine ⟨y, by simp only [run, move, q1, if_true, Option.bind_some]; exact y1, ?_⟩
        rw [y2, ea, List.filter_cons, if_pos (by simpa using hb), hs]
        simp
      · obtain ⟨y, y1, y2⟩ := run_tuned f0 f1 f2 f3 m0 m1 m2 m3 l x h ho hs hl'
        refine ⟨y, by simp only [run, move, p2 hb, Option.bind_some]; exact y1, ?_⟩
        rw [y2, ea, List.filter_cons, if_neg (by simpa using hb)]
    | read old => exact absurd rfl (hr old)

/-- C83 (part): behind the start and the setting of filter and mask, whatever is sent in between, the first frame which is stored is the first one which agrees with the filter in
the bits of the mask.  Missing: the frames behind the first one which is read, see `C83_lost_violated`. -/
theorem C83_first_partial (s : State) (f0 f1 f2 f3 m0 m1 m2 m3 : U8) (l : List Move) (hl : ∀ mv ∈ l, Ok mv ∧ ∀ old, mv ≠ .read old) :
    ∃ y, run l (setMask m0 m1 m2 m3 (setFilter f0 f1 f2 f3 (start s).1), ⟨[], [], [], []⟩) = some y ∧
      y.2.stored = ((arrivals l).filter fun b => passes f0 f1 f2 f3 m0 m1 m2 m3 b).take 1 := by
  obtain ⟨t1, t2⟩ := tuned_mob s f0 f1 f2 f3 m0 m1 m2 m3
  exact run_tuned f0 f1 f2 f3 m0 m1 m2 m3 l _ t1 t2 rfl hl

/-- C83 does not hold: when the first frame has been read, every frame passes, whatever filter was set. -/
theorem C83_lost_violated (s : State) (f0 f1 f2 f3 m0 m1 m2 m3 : U8) (b : BusFrame) (hb : Valid b) (hp : passes f0 f1 f2 f3 m0 m1 m2 m3 b) (old : Frame) :
    ∃ g s', readFrame old (rx b (setMask m0 m1 m2 m3 (setFilter f0 f1 f2 f3 (start s).1))).1 = some (.ok, g, s') ∧ ∀ b', (rx b' s').2 = true := by
  obtain ⟨t1, t2⟩ := tuned_mob s f0 f1 f2 f3 m0 m1 m2 m3
  generalize setMask m0 m1 m2 m3 (setFilter f0 f1 f2 f3 (start s).1) = x at t1 t2
  rw [← accepts_passes] at hp
  have hrx : rx b x = ({ x with mobs := x.mobs.set 0 ((tuned f0 f1 f2 f3 m0 m1 m2 m3).received b) }, true) := by
    unfold rx
    rw [t1, if_pos ⟨t2, rfl, tuned_cd .., hp⟩]
  rw [hrx]
  obtain ⟨g, s', r1, r2, r3, r4⟩ := read_received { x with mobs := x.mobs.set 0 ((tuned f0 f1 f2 f3 m0 m1 m2 m3).received b) } (tuned f0 f1 f2 f3 m0 m1 m2 m3) b old rfl rfl hb
    (Vector.getElem_set_self _)
  refine ⟨g, s', r1, fun b' => ?_⟩
  have hm : s'.mobs[0] = { empty with cd := 0x80, en := true } := by simp only [r4]; rw [Vector.getElem_set_self]
  have ho : s'.on = true := r3.trans t2
  unfold rx
  rw [hm, ho, if_pos ⟨rfl, rfl, rfl, accepts_all listens_empty b'⟩]

/-- C83 does not hold: setting a filter while a frame waits replaces the identifier of this frame: here a data frame with a 29 bit identifier is read with the identifier of the filter. -/
theorem C83_corrupt_violated (s : State) (f0 f1 f2 f3 : U8) (b : BusFrame) (hb : Valid b) (he : b.ext = true) (old : Frame) :
    ∃ g s', readFrame old (setFilter f0 f1 f2 f3 (rx b (start s).1).1) = some (.ok, g, s') ∧
      g.id.toNat = f0.toNat * 2 ^ 21 + f1.toNat * 2 ^ 13 + f2.toNat * 2 ^ 5 + f3.toNat / 8 := by
  have h1 : (start s).1.on = true := rfl
  have h3 := start_mob s 0 (by decide)
  generalize start s = x at h1 h3
  rw [if_pos rfl] at h3
  have hrx : rx b x.1 = ({ x.1 with mobs := x.1.mobs.set 0 (({ empty with cd := 0x80, en := true } : Mob).received b) }, true) := by
    unfold rx
    rw [h3, if_pos ⟨h1, rfl, rfl, accepts_all listens_empty b⟩]
  rw [hrx]
  have hm : (setFilter f0 f1 f2 f3 { x.1 with mobs := x.1.mobs.set 0 (({ empty with cd := 0x80, en := true } : Mob).received b) }).mobs[0] =
      { ({ empty with cd := 0x80, en := true } : Mob).received b with idt1 := f0, idt2 := f1, idt3 := f2, idt4 := f3 } := by
    show (Vector.set _ 0 _)[0] = _
    rw [Vector.getElem_set_self]
    show { (x.1.mobs.set 0 _)[0] with idt1 := f0, idt2 := f1, idt3 := f2, idt4 := f3 } = _
    rw [Vector.getElem_set_self]
  generalize setFilter f0 f1 f2 f3 { x.1 with mobs := x.1.mobs.set 0 (({ empty with cd := 0x80, en := true } : Mob).received b) } = z at hm
  obtain ⟨c1, c2, c3⟩ := received_cd b.ext b.dlc hb.2.1
  have k3 : z.mobs[0].cd &&& 0x0F = b.dlc := by rw [hm]; exact c3
  have k2 : z.mobs[0].cd &&& 0x10 ≠ 0 := by rw [hm]; exact c2.2 he
  have k1 : ¬ z.mobs[0].st &&& 0x20 = 0 := by rw [hm]; exact or20_st _ rfl
  have i1 : z.mobs[0].idt1 = f0 := by rw [hm]
  have i2 : z.mobs[0].idt2 = f1 := by rw [hm]
  have i3 : z.mobs[0].idt3 = f2 := by rw [hm]
  have i4 : z.mobs[0].idt4 = f3 := by rw [hm]
  unfold readFrame
  simp only [if_neg k1, k3, if_pos hb.2.1, if_pos k2, i1, i2, i3, i4]
  refine ⟨_, _, rfl, ?_⟩
  have key : ∀ x : U8, ((x >>> 3) &&& 0x1F).toNat = x.toNat / 8 := by decide +kernel
  simp only [BitVec.toNat_add, BitVec.toNat_shiftLeft, BitVec.toNat_setWidth, key, Nat.shiftLeft_eq]
  have := f0.isLt; have := f1.isLt; have := f2.isLt; have := f3.isLt
  omega

section Witness

/-- A filter for one identifier with 29 bit, and another frame in front of it. -/
example : passes 0x12 0x34 0x56 0x78 0xFF 0xFF 0xFF 0xF8 ⟨true, false, 0x2468ACF, 1, [7]⟩ ∧ ¬ passes 0x12 0x34 0x56 0x78 0xFF 0xFF 0xFF 0xF8 ⟨true, false, 0x2468ACE, 1, [7]⟩ ∧
    Valid ⟨true, false, 0x2468ACF, 1, [7]⟩ := by decide

/-- A filter for 11 bit identifiers only. -/
example : passes 0x24 0x60 0 0 0xFF 0xE0 0 0x01 ⟨false, true, 0x123, 3, []⟩ ∧ ¬ passes 0x24 0x60 0 0 0xFF 0xE0 0 0x01 ⟨true, false, 0x123 * 2 ^ 18, 0, []⟩ := by decide

example : ∀ mv ∈ [Move.send (ext 1 2 3) (fun _ => 0), .rx ⟨true, false, 5, 0, []⟩, .tx], Ok mv ∧ ∀ old, mv ≠ .read old := by
  intro mv h
  simp only [List.mem_cons, List.not_mem_nil, or_false] at h
  rcases h with rfl | rfl | rfl
  · exact ⟨plain_ext _ _ _ (by decide), fun _ h => by cases h⟩
  · exact ⟨⟨by decide, by decide, by decide⟩, fun _ h => by cases h⟩
  · exact ⟨trivial, fun _ h => by cases h⟩

end Witness

/-! ### Behind `can_Close` -/

theorem tx_off {s : State} (h : s.on = false) : tx s = (s, none) := by unfold tx; rw [if_neg (by simp [h])]

theorem txs_off {s : State} (h : s.on = false) (n : Nat) : txs n s = (s, []) := by
  induction n with
  | zero => rfl
  | succ n ih => simp only [txs, tx_off h, ih]; rfl

theorem search_off (hw : Nat → Nat) (k : Nat) (s : State) (h : s.on = false) : (search hw k s).2 = (s, []) := by
  induction hk : 15 - k generalizing k with
  | zero =>
    unfold search
    rw [dif_neg (by omega)]
  | succ n ih =>
    unfold search
    rw [dif_pos (by omega)]
    simp only [txs_off h]
    split
    · rfl
    · split
      · rfl
      · simp only [ih (k + 1) (by omega), List.append_nil]

theorem move_off {x y : State × Trace} {mv : Move} (h : x.1.on = false) (hm : move x mv = some y) :
    y.1.on = false ∧ y.2.wire = x.2.wire ∧ y.2.stored = x.2.stored := by
  cases mv with
  | send f hw =>
    obtain ⟨r, hr, rfl⟩ := Option.map_eq_some_iff.mp hm
    have hs := search_off hw 1 x.1 h
    unfold sendFrame getFreeMob at hr
    cases hk : search hw 1 x.1 with
    | mk k q =>
      rw [hk] at hs hr
      simp only at hs
      subst hs
      cases k with
      | none => cases hr; exact ⟨h, List.append_nil _, rfl⟩
      | some k =>
        dsimp only at hr
        split at hr
        · cases hr; exact ⟨h, List.append_nil _, rfl⟩
        · cases hr
  | tx =>
    simp only [move, tx_off h] at hm
    cases hm; exact ⟨h, List.append_nil _, rfl⟩
  | rx b =>
    have e : rx b x.1 = (x.1, false) := by unfold rx; rw [if_neg (by simp [h])]
    simp only [move, e] at hm
    cases hm; exact ⟨h, rfl, rfl⟩
  | read old =>
    obtain ⟨r, hr, rfl⟩ := Option.map_eq_some_iff.mp hm
    unfold readFrame at hr
    dsimp only at hr
    split at hr
    · cases hr; exact ⟨h, rfl, rfl⟩
    · split at hr
      · cases hr; exact ⟨h, rfl, rfl⟩
      · cases hr

/-- C82: behind `can_Close`, whatever happens, the node sends nothing and stores nothing. -/
theorem C82_closed (s : State) (l l' : List Move) (x y : State × Trace) (_ : run l (start s) = some x) (hr : run l' (canClose x.1, x.2) = some y) :
    y.2.wire = x.2.wire ∧ y.2.stored = x.2.stored := by
  have key : ∀ (l : List Move) (x y : State × Trace), x.1.on = false → run l x = some y → y.2.wire = x.2.wire ∧ y.2.stored = x.2.stored := by
    intro l
    induction l with
    | nil => intro x y _ h; cases h; exact ⟨rfl, rfl⟩
    | cons mv l ih =>
      intro x y h0 h
      obtain ⟨z, hz, h⟩ := Option.bind_eq_some_iff.mp h
      obtain ⟨a1, a2, a3⟩ := move_off h0 hz
      obtain ⟨b1, b2⟩ := ih z y a1 h
      exact ⟨b1.trans a2, b2.trans a3⟩
  exact key l' (canClose x.1, x.2) y rfl hr

/-- A frame which waits when the driver is closed is not sent; without the call it is. -/
example : ((run [.send (ext 1 2 3) (fun _ => 0)] (start ⟨Vector.replicate 15 empty, false⟩)).bind fun x =>
      (run [.tx, .rx ⟨true, false, 5, 0, []⟩] (canClose x.1, x.2)).map fun y => (y.2.taken.length, y.2.wire.length, y.2.stored.length)) = some (1, 0, 0) ∧
    ((run [.send (ext 1 2 3) (fun _ => 0)] (start ⟨Vector.replicate 15 empty, false⟩)).bind fun x =>
      (run [.tx, .rx ⟨true, false, 5, 0, []⟩] x).map fun y => (y.2.taken.length, y.2.wire.length, y.2.stored.length)) = some (1, 1, 1) := by decide +kernel

end Vscp.CanDrvProps
