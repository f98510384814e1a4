/-
Helper lemmas about bit operations.
-/
import Verif.Model.Basic

namespace Vscp

theorem nat_or_eq_add (k x y : Nat) (hx : x % 2 ^ k = 0) (hy : y < 2 ^ k) : x ||| y = x + y := by
  have h : (x / 2 ^ k) <<< k = x := by
    rw [Nat.shiftLeft_eq]
    exact Nat.div_mul_cancel (Nat.dvd_of_mod_eq_zero hx)
  rw [← h, Nat.shiftLeft_add_eq_or_of_lt hy]

theorem and_low_toNat (x : U8) (k : Nat) (_hk : k ≤ 8) :
    (x &&& BitVec.ofNat 8 (2 ^ k - 1)).toNat = x.toNat % 2 ^ k := by
  have : 2 ^ k - 1 < 256 := by
    have := Nat.pow_le_pow_right (n := 2) (by omega) _hk
    omega
  simp [Nat.mod_eq_of_lt this]

end Vscp
