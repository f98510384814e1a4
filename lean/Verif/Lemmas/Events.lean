/-
Lemmas about the send functions: the statements a regular function has, for every signature.
-/
import Verif.Spec.Events
import Verif.Model.EventTable
import Verif.Lemmas.Ops
import Verif.Props.DataCoding

namespace Vscp.Evt
open Vscp.Events Vscp.Spec.Evt

/-- The statements for one parameter at position `i`, to be placed at offset `off`. -/
def gen1 (i off : Nat) : Ty → List Stmt
  | .u8 | .i8 => [.byte off i 0, .size 1]
  | .u16 => [.byte off i 8, .byte (off + 1) i 0, .size 2]
  | .u32 | .i32 => [.byte off i 24, .byte (off + 1) i 16, .byte (off + 2) i 8, .byte (off + 3) i 0, .size 4]
  | .f32 => [.mem off i 3 false, .mem (off + 1) i 2 false, .mem (off + 2) i 1 false, .mem (off + 3) i 0 false, .size 4]
  | .f64 => [.mem off i 7 true, .mem (off + 1) i 6 true, .mem (off + 2) i 5 true, .mem (off + 3) i 4 true,
      .mem (off + 4) i 3 true, .mem (off + 5) i 2 true, .mem (off + 6) i 1 true, .mem (off + 7) i 0 true, .size 8]
  | .opt8 => [.opt i [(off, 0)] 1]
  | .opt16 => [.opt i [(off, 8), (off + 1, 0)] 2]
  | .opt32 => [.opt i [(off, 24), (off + 1, 16), (off + 2, 8), (off + 3, 0)] 4]
  | .arr => [.loop off i (i + 1)]
  | .optArr => [.optLoop off i (i + 1)]
  | .len => []

/-- The bytes a parameter may need. -/
def space : Ty → Nat
  | .opt8 => 1
  | .opt16 => 2
  | .opt32 => 4
  | .arr | .optArr => 1
  | t => width t

/-- The statements for the parameters from position `i` on. -/
def gen : Nat → Nat → List Ty → List Stmt
  | _, _, [] => []
  | i, off, t :: r => gen1 i off t ++ gen (i + 1) (off + width t) r

/-- The checks in front. -/
def needs : Nat → List Ty → List Stmt
  | _, [] => []
  | i, .arr :: r => .need i (i + 1) :: needs (i + 1) r
  | i, _ :: r => needs (i + 1) r

/-- Everything has its place, only the last parameter has a variable size. -/
def wf (off : Nat) : List Ty → Bool
  | [] => true
  | [.arr, .len] | [.optArr, .len] => decide (off < 8)
  | [t] => decide (off + space t ≤ 8) && t != .arr && t != .optArr
  | t :: r => decide (0 < width t) && decide (off + width t ≤ 8) && wf (off + width t) r

/-- A function whose statements are the ones expected for its declaration. -/
def regular (f : Fn) : Bool := wf 0 f.sig && decide (f.body = needs 0 f.sig ++ gen 0 0 f.sig)

/-- The bytes written so far. -/
def head (data : Vector U8 8) (n : Nat) : List U8 := data.toList.take n

theorem head_set (data : Vector U8 8) (n : Nat) (h : n < 8) (x : U8) : head (data.set n x) (n + 1) = head data n ++ [x] := by
  unfold head
  rw [Vector.toList_set, List.take_succ_eq_append_getElem (by simp [h])]
  rw [List.take_set_of_le (Nat.le_refl _)]
  simp

theorem put_head (data : Vector U8 8) (n : Nat) (h : n < 8) (x : U8) : ∃ d, put data n x = some d ∧ head d (n + 1) = head data n ++ [x] :=
  ⟨data.set n x, by rw [put, dif_pos h], head_set data n h x⟩

theorem exec_byte (p : Plat) (a : Args) (k x sh : Nat) (r : List Stmt) (d : Vector U8 8) (s : U8) (h : k < 8) :
    ∃ d', exec p a (.byte k x sh :: r) d s = exec p a r d' s ∧ head d' (k + 1) = head d k ++ [BitVec.ofNat 8 (a.num x >>> sh)] := by
  obtain ⟨d', h1, h2⟩ := put_head d k h (BitVec.ofNat 8 (a.num x >>> sh))
  exact ⟨d', by rw [exec, h1], h2⟩

theorem exec_mem (p : Plat) (hp : Ieee p) (a : Args) (k x j : Nat) (b : Bool) (r : List Stmt) (d : Vector U8 8) (s : U8) (h : k < 8) (hj : j < if b then 8 else 4) :
    ∃ d', exec p a (.mem k x j b :: r) d s = exec p a r d' s ∧ head d' (k + 1) = head d k ++ [BitVec.ofNat 8 (a.num x >>> (8 * j))] := by
  obtain ⟨d', h1, h2⟩ := put_head d k h (BitVec.ofNat 8 (a.num x >>> (8 * j)))
  refine ⟨d', ?_, h2⟩
  rw [exec, hp.le, hp.float, hp.double, if_pos hj, memByte]
  simp only [if_true]
  rw [h1]

theorem shift_div (v j : Nat) : v >>> (8 * j) = v / 256 ^ j := by
  rw [Nat.shiftRight_eq_div_pow, Nat.pow_mul]

theorem putAll_head (v : Nat) : ∀ (n k : Nat) (d : Vector U8 8), k + n ≤ 8 →
    ∃ d', putAll v ((List.range n).map fun i => (k + i, 8 * (n - 1 - i))) d = some d' ∧ head d' (k + n) = head d k ++ be n v := by
  intro n
  induction n with
  | zero => intro k d _; exact ⟨d, rfl, by simp [be]⟩
  | succ n ih =>
    intro k d h
    obtain ⟨d1, h1, h2⟩ := put_head d k (by omega) (BitVec.ofNat 8 (v >>> (8 * n)))
    obtain ⟨d2, h3, h4⟩ := ih (k + 1) d1 (by omega)
    refine ⟨d2, ?_, ?_⟩
    · rw [List.range_succ_eq_map, List.map_cons, List.map_map, putAll]
      simp only [Nat.add_zero, Nat.add_sub_cancel, Nat.sub_zero]
      rw [h1]
      dsimp only
      rw [← h3]
      congr 1
      apply List.map_congr_left
      intro i hi
      simp only [Function.comp, Nat.succ_eq_add_one, Prod.mk.injEq]
      omega
    · rw [show k + (n + 1) = k + 1 + n by omega, h4, h2, be, shift_div]
      simp

theorem copyLoop_head (src : Nat → U8) (n off : Nat) : ∀ (m i : Nat) (d : Vector U8 8) (s : U8), m = n - i → s.toNat = off + i → i ≤ n → off + i < 8 →
    ∃ d' s', copyLoop src n off i d s = some (d', s') ∧ s'.toNat = min 8 (off + n) ∧
      head d' s'.toNat = (head d (off + i) ++ ((List.range n).drop i).map src).take 8 := by
  intro m
  induction m with
  | zero =>
    intro i d s hm hs hi ho
    refine ⟨d, s, by rw [copyLoop, dif_neg (by omega)], by omega, ?_⟩
    rw [hs, List.drop_eq_nil_of_le (by simp; omega), List.map_nil, List.append_nil, List.take_of_length_le]
    unfold head; simp; omega
  | succ m ih =>
    intro i d s hm hs hi ho
    obtain ⟨d1, h1, h2⟩ := put_head d (off + i) ho (src i)
    have hdrop : ((List.range n).drop i).map src = src i :: ((List.range n).drop (i + 1)).map src := by
      rw [List.drop_eq_getElem_cons (by simp; omega), List.map_cons, List.getElem_range]
    have hs1 : (s + 1).toNat = off + i + 1 := by
      rw [BitVec.toNat_add, hs]
      show (off + i + 1) % 256 = _
      omega
    rw [copyLoop, dif_pos (by omega), h1]
    dsimp only
    by_cases h8 : 8 ≤ (s + 1).toNat
    · rw [if_pos h8]
      refine ⟨d1, s + 1, rfl, by omega, ?_⟩
      rw [hs1, h2, hdrop, show head d (off + i) ++ src i :: ((List.range n).drop (i + 1)).map src =
        (head d (off + i) ++ [src i]) ++ ((List.range n).drop (i + 1)).map src by simp, List.take_append_of_le_length, List.take_of_length_le]
      · simp [head]; omega
      · simp [head]; omega
    · rw [if_neg h8]
      obtain ⟨d2, s2, h3, h4, h5⟩ := ih (i + 1) d1 (s + 1) (by omega) (by omega) (by omega) (by omega)
      refine ⟨d2, s2, h3, h4, ?_⟩
      rw [h5, show off + (i + 1) = off + i + 1 by omega, h2, hdrop]
      simp

theorem scalar_step (p : Plat) (hp : Ieee p) (a : Args) (i off : Nat) (t : Ty) (r : List Stmt) (d : Vector U8 8) (s : U8) (hw : 0 < width t)
    (ho : off + width t ≤ 8) :
    ∃ d', exec p a (gen1 i off t ++ r) d s = exec p a r d' (s + BitVec.ofNat 8 (width t)) ∧
      head d' (off + width t) = head d off ++ argBytes a i t ∧ (argBytes a i t).length = width t := by
  have b1 : ∀ (r : List Stmt) (d : Vector U8 8), off + 1 ≤ 8 → ∃ d', exec p a (.byte off i 0 :: .size 1 :: r) d s = exec p a r d' (s + BitVec.ofNat 8 1) ∧
      head d' (off + 1) = head d off ++ be 1 (a.num i) := by
    intro r d h
    obtain ⟨d1, e1, h1⟩ := exec_byte p a off i 0 (.size 1 :: r) d s (by omega)
    exact ⟨d1, by rw [e1, exec], by rw [h1]; simp [be]⟩
  have b4 : ∀ (r : List Stmt) (d : Vector U8 8), off + 4 ≤ 8 →
      ∃ d', exec p a (.byte off i 24 :: .byte (off + 1) i 16 :: .byte (off + 2) i 8 :: .byte (off + 3) i 0 :: .size 4 :: r) d s =
        exec p a r d' (s + BitVec.ofNat 8 4) ∧ head d' (off + 4) = head d off ++ be 4 (a.num i) := by
    intro r d h
    obtain ⟨d1, e1, h1⟩ := exec_byte p a off i 24 (.byte (off + 1) i 16 :: .byte (off + 2) i 8 :: .byte (off + 3) i 0 :: .size 4 :: r) d s (by omega)
    obtain ⟨d2, e2, h2⟩ := exec_byte p a (off + 1) i 16 (.byte (off + 2) i 8 :: .byte (off + 3) i 0 :: .size 4 :: r) d1 s (by omega)
    obtain ⟨d3, e3, h3⟩ := exec_byte p a (off + 2) i 8 (.byte (off + 3) i 0 :: .size 4 :: r) d2 s (by omega)
    obtain ⟨d4, e4, h4⟩ := exec_byte p a (off + 3) i 0 (.size 4 :: r) d3 s (by omega)
    refine ⟨d4, by rw [e1, e2, e3, e4, exec], ?_⟩
    rw [show off + 4 = off + 3 + 1 from rfl, h4, show off + 3 = off + 2 + 1 from rfl, h3, show off + 2 = off + 1 + 1 from rfl, h2, h1]
    simp [be, Nat.shiftRight_eq_div_pow]
  cases t with
  | u8 | i8 =>
    obtain ⟨d1, e1, h1⟩ := b1 r d ho
    exact ⟨d1, e1, h1, rfl⟩
  | u16 =>
    simp only [width] at ho
    obtain ⟨d1, e1, h1⟩ := exec_byte p a off i 8 (.byte (off + 1) i 0 :: .size 2 :: r) d s (by omega)
    obtain ⟨d2, e2, h2⟩ := exec_byte p a (off + 1) i 0 (.size 2 :: r) d1 s (by omega)
    refine ⟨d2, ?_, ?_, rfl⟩
    · rw [gen1, List.cons_append, List.cons_append, List.cons_append, List.nil_append, e1, e2, exec]; rfl
    · show head d2 (off + 1 + 1) = _
      rw [h2, h1]; simp [argBytes, be, Nat.shiftRight_eq_div_pow]
  | u32 | i32 =>
    obtain ⟨d1, e1, h1⟩ := b4 r d ho
    exact ⟨d1, e1, h1, rfl⟩
  | f32 =>
    simp only [width] at ho
    obtain ⟨d1, e1, h1⟩ := exec_mem p hp a off i 3 false (.mem (off + 1) i 2 false :: .mem (off + 2) i 1 false :: .mem (off + 3) i 0 false :: .size 4 :: r) d s (by omega) (by simp)
    obtain ⟨d2, e2, h2⟩ := exec_mem p hp a (off + 1) i 2 false (.mem (off + 2) i 1 false :: .mem (off + 3) i 0 false :: .size 4 :: r) d1 s (by omega) (by simp)
    obtain ⟨d3, e3, h3⟩ := exec_mem p hp a (off + 2) i 1 false (.mem (off + 3) i 0 false :: .size 4 :: r) d2 s (by omega) (by simp)
    obtain ⟨d4, e4, h4⟩ := exec_mem p hp a (off + 3) i 0 false (.size 4 :: r) d3 s (by omega) (by simp)
    refine ⟨d4, ?_, ?_, rfl⟩
    · simp only [gen1, List.cons_append, List.nil_append]
      rw [e1, e2, e3, e4, exec]; rfl
    · show head d4 (off + 3 + 1) = _
      rw [h4, show off + 3 = off + 2 + 1 from rfl, h3, show off + 2 = off + 1 + 1 from rfl, h2, h1]
      simp [argBytes, be, Nat.shiftRight_eq_div_pow]
  | f64 =>
    simp only [width] at ho
    have h0 : off = 0 := by omega
    subst h0
    obtain ⟨d1, e1, h1⟩ := exec_mem p hp a 0 i 7 true (.mem 1 i 6 true :: .mem 2 i 5 true :: .mem 3 i 4 true :: .mem 4 i 3 true :: .mem 5 i 2 true ::
      .mem 6 i 1 true :: .mem 7 i 0 true :: .size 8 :: r) d s (by omega) (by simp)
    obtain ⟨d2, e2, h2⟩ := exec_mem p hp a 1 i 6 true (.mem 2 i 5 true :: .mem 3 i 4 true :: .mem 4 i 3 true :: .mem 5 i 2 true ::
      .mem 6 i 1 true :: .mem 7 i 0 true :: .size 8 :: r) d1 s (by omega) (by simp)
    obtain ⟨d3, e3, h3⟩ := exec_mem p hp a 2 i 5 true (.mem 3 i 4 true :: .mem 4 i 3 true :: .mem 5 i 2 true ::
      .mem 6 i 1 true :: .mem 7 i 0 true :: .size 8 :: r) d2 s (by omega) (by simp)
    obtain ⟨d4, e4, h4⟩ := exec_mem p hp a 3 i 4 true (.mem 4 i 3 true :: .mem 5 i 2 true ::
      .mem 6 i 1 true :: .mem 7 i 0 true :: .size 8 :: r) d3 s (by omega) (by simp)
    obtain ⟨d5, e5, h5⟩ := exec_mem p hp a 4 i 3 true (.mem 5 i 2 true ::
      .mem 6 i 1 true :: .mem 7 i 0 true :: .size 8 :: r) d4 s (by omega) (by simp)
    obtain ⟨d6, e6, h6⟩ := exec_mem p hp a 5 i 2 true (.mem 6 i 1 true :: .mem 7 i 0 true :: .size 8 :: r) d5 s (by omega) (by simp)
    obtain ⟨d7, e7, h7⟩ := exec_mem p hp a 6 i 1 true (.mem 7 i 0 true :: .size 8 :: r) d6 s (by omega) (by simp)
    obtain ⟨d8, e8, h8⟩ := exec_mem p hp a 7 i 0 true (.size 8 :: r) d7 s (by omega) (by simp)
    refine ⟨d8, ?_, ?_, rfl⟩
    · simp only [gen1, List.cons_append, List.nil_append, Nat.zero_add]
      rw [e1, e2, e3, e4, e5, e6, e7, e8, exec]; rfl
    · show head d8 (7 + 1) = _
      rw [h8, show 7 = 6 + 1 from rfl, h7, show 6 = 5 + 1 from rfl, h6, show 5 = 4 + 1 from rfl, h5, show 4 = 3 + 1 from rfl, h4, show 3 = 2 + 1 from rfl, h3,
        show 2 = 1 + 1 from rfl, h2, show 1 = 0 + 1 from rfl, h1]
      simp [argBytes, be, Nat.shiftRight_eq_div_pow]
  | opt8 | opt16 | opt32 | arr | optArr | len => exact absurd hw (by decide)

theorem head_take (d : Vector U8 8) (n : Nat) : (head d n).take 8 = head d n := List.take_of_length_le (by simp [head]; omega)

theorem head_len (d : Vector U8 8) (n : Nat) (h : n ≤ 8) : (head d n).length = n := by simp [head]; omega

/-- The result of the statements for the parameters from position `i` on. -/
def Placed (p : Plat) (a : Args) (st : List Stmt) (d : Vector U8 8) (s : U8) (off : Nat) (l : List U8) : Prop :=
  ∃ d' s', exec p a st d s = .ok d' s' ∧ s'.toNat = min 8 (off + l.length) ∧ head d' s'.toNat = (head d off ++ l).take 8

theorem opt_placed (p : Plat) (a : Args) (i off n : Nat) (d : Vector U8 8) (s : U8) (hs : s.toNat = off) (ho : off + n ≤ 8) :
    Placed p a [.opt i ((List.range n).map fun j => (off + j, 8 * (n - 1 - j))) n] d s off (if a.null i then [] else be n (a.num i)) := by
  have hbe : ∀ n v, (be n v).length = n := by
    intro n v
    induction n with
    | zero => rfl
    | succ n ih => simp [be, ih]
  unfold Placed
  rw [exec]
  by_cases h : a.null i = true
  · rw [if_pos h, if_pos h, exec]
    refine ⟨d, s, rfl, by rw [hs]; simp; omega, by rw [hs, List.append_nil, head_take]⟩
  · rw [if_neg h, if_neg h]
    obtain ⟨d1, h1, h2⟩ := putAll_head (a.num i) n off d ho
    rw [h1]
    dsimp only
    rw [exec]
    have hs1 : (s + BitVec.ofNat 8 n).toNat = off + n := by
      rw [BitVec.toNat_add, hs, BitVec.toNat_ofNat]; omega
    refine ⟨d1, _, rfl, by rw [hs1, hbe]; omega, ?_⟩
    rw [hs1, h2, List.take_of_length_le]
    rw [List.length_append, hbe, head_len _ _ (by omega)]; omega

theorem copy_placed (p : Plat) (a : Args) (i off : Nat) (d : Vector U8 8) (s : U8) (hs : s.toNat = off) (ho : off < 8) :
    Placed p a [.loop off i (i + 1)] d s off (bytesOf a i) := by
  unfold Placed bytesOf
  obtain ⟨d1, s1, h1, h2, h3⟩ := copyLoop_head (a.arr i) (a.num (i + 1) % 256) off _ 0 d s rfl hs (by omega) ho
  rw [exec, h1]
  dsimp only
  rw [exec]
  exact ⟨d1, s1, rfl, by rw [h2]; simp, by rw [h3]; simp⟩

/-- The statements of a regular function put the arguments one after the other. -/
theorem exec_gen (p : Plat) (hp : Ieee p) (a : Args) : ∀ (sig : List Ty) (i off : Nat) (d : Vector U8 8) (s : U8), wf off sig = true → s.toNat = off → off ≤ 8 →
    missing a i sig = false → Placed p a (gen i off sig) d s off (params a i sig) := by
  intro sig
  induction sig with
  | nil =>
    intro i off d s _ hs ho _
    exact ⟨d, s, by rw [gen, exec], by rw [hs]; simp [params]; omega, by rw [hs, params, List.append_nil, head_take]⟩
  | cons t r ih =>
    intro i off d s hwf hs ho hm
    by_cases hw : 0 < width t
    · have h2 : off + width t ≤ 8 ∧ wf (off + width t) r = true := by
        cases t <;> cases r with
        | nil => first | exact absurd hw (by decide) | (simp only [wf, space, width, Bool.and_eq_true] at hwf ⊢; exact ⟨of_decide_eq_true hwf.1.1, trivial⟩)
        | cons t' r' =>
          first | exact absurd hw (by decide) | (simp only [wf, width, Bool.and_eq_true] at hwf ⊢; exact ⟨of_decide_eq_true hwf.1.2, hwf.2⟩)
      have hm2 : missing a (i + 1) r = false := by
        cases t <;> first | exact hm | exact absurd hw (by decide)
      obtain ⟨d1, e1, h3, h4⟩ := scalar_step p hp a i off t (gen (i + 1) (off + width t) r) d s hw h2.1
      have hs1 : (s + BitVec.ofNat 8 (width t)).toNat = off + width t := by
        rw [BitVec.toNat_add, hs, BitVec.toNat_ofNat]; omega
      obtain ⟨d2, s2, e2, h5, h6⟩ := ih (i + 1) (off + width t) d1 _ h2.2 hs1 h2.1 hm2
      refine ⟨d2, s2, by rw [gen, e1, e2], ?_, ?_⟩
      · rw [h5, params, List.length_append, h4]; congr 1; omega
      · rw [h6, h3, params, List.append_assoc]
    · cases r with
      | nil =>
        have hone : params a i [t] = argBytes a i t := by simp [params]
        rw [hone]
        cases t with
        | opt8 =>
          have := opt_placed p a i off 1 d s hs (by simpa [wf, space] using hwf)
          simpa [gen, gen1, argBytes, List.range_succ] using this
        | opt16 =>
          have := opt_placed p a i off 2 d s hs (by simpa [wf, space] using hwf)
          simpa [gen, gen1, argBytes, List.range_succ] using this
        | opt32 =>
          have := opt_placed p a i off 4 d s hs (by simpa [wf, space] using hwf)
          simpa [gen, gen1, argBytes, List.range_succ] using this
        | len =>
          refine ⟨d, s, by simp [gen, gen1, exec], by rw [hs]; simp [argBytes]; omega, by rw [hs, argBytes, List.append_nil, head_take]⟩
        | arr => simp [wf] at hwf
        | optArr => simp [wf] at hwf
        | u8 | i8 | u16 | u32 | i32 | f32 | f64 => exact absurd (by decide) hw
      | cons t' r' =>
        have hcases : (t = .arr ∨ t = .optArr) ∧ t' = .len ∧ r' = [] ∧ off < 8 := by
          cases t <;> cases t' <;> cases r' <;> simp_all [wf, width]
        obtain ⟨ht, rfl, rfl, ho8⟩ := hcases
        rcases ht with rfl | rfl
        · have hn : a.null i = false := by
            simp only [missing, Bool.or_eq_false_iff] at hm
            exact hm.1.1
          have : params a i [.arr, .len] = bytesOf a i := by simp [params, argBytes, hn]
          rw [this]
          exact copy_placed p a i off d s hs ho8
        · show Placed p a [.optLoop off i (i + 1)] d s off _
          by_cases hn : a.null i = true
          · have : params a i [.optArr, .len] = [] := by simp [params, argBytes, hn]
            rw [this]
            exact ⟨d, s, by rw [exec, if_pos hn, exec], by rw [hs]; simp; omega, by rw [hs, List.append_nil, head_take]⟩
          · have : params a i [.optArr, .len] = bytesOf a i := by simp [params, argBytes, hn]
            rw [this]
            obtain ⟨d1, s1, h1, h2⟩ := copy_placed p a i off d s hs ho8
            refine ⟨d1, s1, ?_, h2⟩
            rw [← h1, exec, exec, if_neg hn]

theorem exec_needs (p : Plat) (a : Args) (r : List Stmt) (d : Vector U8 8) (s : U8) : ∀ (sig : List Ty) (i : Nat),
    exec p a (needs i sig ++ r) d s = if missing a i sig = true then .refused else exec p a r d s := by
  intro sig
  induction sig with
  | nil => intro i; simp [needs, missing]
  | cons t l ih =>
    intro i
    by_cases ht : t = .arr
    · subst ht
      rw [needs, List.cons_append, exec, ih, missing]
      have hz : (BitVec.ofNat 8 (a.num (i + 1)) = (0 : U8)) ↔ a.num (i + 1) % 256 = 0 := by
        constructor
        · intro h
          have := congrArg BitVec.toNat h
          simpa using this
        · intro h
          apply BitVec.eq_of_toNat_eq
          simpa using h
      by_cases h1 : a.null i = true
      · simp [h1]
      · by_cases h2 : a.num (i + 1) % 256 = 0
        · rw [if_pos (.inr (hz.mpr h2))]; simp [h2]
        · rw [if_neg (by rw [hz]; simp [h1, h2])]
          simp [h1, h2]
    · have e1 : needs i (t :: l) = needs (i + 1) l := by cases t <;> first | rfl | exact absurd rfl ht
      have e2 : missing a i (t :: l) = missing a (i + 1) l := by cases t <;> first | rfl | exact absurd rfl ht
      rw [e1, e2, ih]

end Vscp.Evt
