import Verif.Model.Prelude
import Mathlib.Data.Nat.Bitwise

/-! Bit-twiddling lemmas over `Nat` used by the BIFF12 proofs. -/

namespace Rxls

theorem and_127 (i : Nat) : i &&& 0x7F = i % 128 := by
  have := Nat.and_two_pow_sub_one_eq_mod i 7
  simpa using this

theorem mod_or_128 (i : Nat) : i % 128 ||| 0x80 = i % 128 + 128 := by
  have h := Nat.two_pow_add_eq_or_of_lt (i := 7) (b := i % 128) (by omega) 1
  rw [Nat.or_comm]
  simp only [Nat.reducePow, Nat.mul_one] at h
  omega

theorem and_pow_eq_zero {x k : Nat} (h : x < 2 ^ k) : x &&& 2 ^ k = 0 := by
  rw [Nat.and_two_pow]
  simp [Nat.testBit_lt_two_pow h] 

theorem and_pow_ne_zero {x k : Nat} (h : 2 ^ k ≤ x) (h2 : x < 2 ^ (k + 1)) : x &&& 2 ^ k ≠ 0 := by
  rw [Nat.and_two_pow]
  have : x.testBit k = true := by
    rw [Nat.testBit_eq_decide_div_mod_eq]
    have : x / 2 ^ k = 1 := by
      rw [Nat.div_eq_iff (Nat.two_pow_pos k)]
      rw [Nat.pow_succ] at h2
      omega
    simp [this]
  simp [this]

theorem and_pow_eq_zero_of_even {x k : Nat} (h : x / 2 ^ k % 2 = 0) : x &&& 2 ^ k = 0 := by
  rw [Nat.and_two_pow]
  have : x.testBit k = false := by
    rw [Nat.testBit_eq_decide_div_mod_eq]; simp [h]
  simp [this]

theorem and_pow_ne_zero_of_odd {x k : Nat} (h : x / 2 ^ k % 2 = 1) : x &&& 2 ^ k ≠ 0 := by
  rw [Nat.and_two_pow]
  have : x.testBit k = true := by
    rw [Nat.testBit_eq_decide_div_mod_eq]; simp [h]
  simp [this]

theorem xor_pow {x k : Nat} (h : 2 ^ k ≤ x) (h2 : x < 2 ^ (k + 1)) : x ^^^ 2 ^ k = x - 2 ^ k := by
  obtain ⟨y, rfl⟩ := Nat.exists_eq_add_of_le h
  have hy : y < 2 ^ k := by rw [Nat.pow_succ] at h2; omega
  have h1 := Nat.two_pow_add_eq_or_of_lt hy 1
  rw [Nat.mul_one] at h1
  apply Nat.eq_of_testBit_eq
  intro j
  rw [h1, Nat.testBit_xor, Nat.testBit_or, ← h1, Nat.add_sub_cancel_left]
  by_cases hj : k = j
  · subst hj; simp [Nat.testBit_lt_two_pow hy]
  · simp [Nat.testBit_two_pow_of_ne hj]

theorem or_shift {x b k : Nat} (h : x < 2 ^ k) : x ||| (b <<< k) = x + b * 2 ^ k := by
  rw [Nat.or_comm, Nat.shiftLeft_eq, Nat.mul_comm b, ← Nat.two_pow_add_eq_or_of_lt h]
  omega

theorem toNat_ofNat_lt {i : Nat} (h : i < 256) : (UInt8.ofNat i).toNat = i := by
  simp [UInt8.toNat_ofNat']; omega

theorem ofNat_toNat (b : UInt8) : UInt8.ofNat b.toNat = b := by simp

theorem byte_lt (b : UInt8) : b.toNat < 256 := b.toNat_lt

end Rxls
