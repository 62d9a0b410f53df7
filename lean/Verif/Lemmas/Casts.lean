import Mathlib.Tactic.IntervalCases
import Mathlib.Tactic.Push
import Verif.Lemmas.Bits
import Verif.Lemmas.F64
import Verif.Spec.Rk
import Verif.Model.Casts

namespace Rxls

theorem two_pow_1024 : (2 : ℚ) ^ (1024 : ℕ) = (2 : ℚ) ^ (1024 : ℤ) := by
  rw [← zpow_natCast]; rfl

theorem isF64_of {m e : ℤ} (hm : |m| < 2 ^ 53) (he : -1074 ≤ e) (he2 : e ≤ 971) :
    IsF64 ((m : ℚ) * (2 : ℚ) ^ e) := by
  refine ⟨⟨m, e, hm, he, rfl⟩, ?_⟩
  rw [abs_mul, abs_of_pos (two_zpow_pos e), two_pow_1024]
  have h1 : (|(m : ℚ)|) < (2 : ℚ) ^ (53 : ℤ) := by
    have : ((|m| : ℤ) : ℚ) < ((2 ^ 53 : ℤ) : ℚ) := by exact_mod_cast hm
    rw [Int.cast_abs] at this
    refine this.trans_le (le_of_eq ?_)
    norm_num
  calc |(m : ℚ)| * (2 : ℚ) ^ e < (2 : ℚ) ^ (53 : ℤ) * (2 : ℚ) ^ e :=
        mul_lt_mul_of_pos_right h1 (two_zpow_pos e)
    _ = (2 : ℚ) ^ (53 + e) := (two_zpow_add _ _).symm
    _ ≤ (2 : ℚ) ^ (1024 : ℤ) := two_zpow_le (by omega)

theorem isF64_neg {q : ℚ} (h : IsF64 q) : IsF64 (-q) :=
  ⟨isFloat_neg h.1, by rw [abs_neg]; exact h.2⟩

theorem ofBits_valid (b : Nat) : (F64.ofBits b).Valid := by
  unfold F64.ofBits
  dsimp only
  split
  · split <;> trivial
  · rename_i he
    have key : IsF64 (if b / 2 ^ 52 % 2 ^ 11 = 0 then ((b % 2 ^ 52 : ℕ) : ℚ) * (2 : ℚ) ^ (-1074 : ℤ)
        else ((2 ^ 52 + b % 2 ^ 52 : ℕ) : ℚ) * (2 : ℚ) ^ (((b / 2 ^ 52 % 2 ^ 11 : ℕ) : ℤ) - 1075)) := by
      have hm : b % 2 ^ 52 < 2 ^ 52 := Nat.mod_lt _ (by norm_num)
      have hE : b / 2 ^ 52 % 2 ^ 11 < 2 ^ 11 := Nat.mod_lt _ (by norm_num)
      split
      · have := isF64_of (m := (b % 2 ^ 52 : ℕ)) (e := -1074) (by
          rw [abs_of_nonneg (by positivity)]; push_cast at hm ⊢; omega) (by norm_num) (by norm_num)
        exact_mod_cast this
      · have := isF64_of (m := (2 ^ 52 + b % 2 ^ 52 : ℕ)) (e := ((b / 2 ^ 52 % 2 ^ 11 : ℕ) : ℤ) - 1075) (by
          rw [abs_of_nonneg (by positivity)]; push_cast at hm ⊢; omega) (by omega) (by omega)
        exact_mod_cast this
    show IsF64 _
    split
    · exact isF64_neg key
    · exact key

theorem ofInt_small {n : ℤ} (h : |n| ≤ 2 ^ 53) : F64.ofInt n = .fin n := rnd_int h

theorem div_one {v : F64} (h : v.Valid) : F64.div v (.fin 1) = v := by
  cases v with
  | nan => rfl
  | inf s => cases s <;> rfl
  | fin q =>
    simp only [F64.div]
    rw [if_neg (by norm_num), _root_.div_one]
    exact rnd_isF64 h

theorem rk_and2 (w : BitVec 32) : (w &&& 2#32 ≠ 0#32) ↔ w.toNat / 2 % 2 = 1 := by
  have h : (w &&& 2#32).toNat = w.toNat &&& 2 ^ 1 := by simp
  have e : (w &&& 2#32 = 0#32) ↔ w.toNat &&& 2 ^ 1 = 0 := by
    rw [← h, ← BitVec.toNat_inj]; rfl
  rw [ne_eq, e]
  rcases Nat.mod_two_eq_zero_or_one (w.toNat / 2) with h | h
  · have := and_pow_eq_zero_of_even (x := w.toNat) (k := 1) (by simpa using h)
    exact ⟨fun hh => absurd this hh, fun hh => by omega⟩
  · have := and_pow_ne_zero_of_odd (x := w.toNat) (k := 1) (by simpa using h)
    simp only [h, iff_true]; exact this

theorem rk_c (w : BitVec 32) : ((w &&& 1#32) * 99#32 + 1#32).toNat = if w.toNat % 2 = 1 then 100 else 1 := by
  have h : (w &&& 1#32).toNat = w.toNat % 2 := by simp [Nat.and_one_is_mod]
  rw [BitVec.toNat_add, BitVec.toNat_mul, h]
  rcases Nat.mod_two_eq_zero_or_one w.toNat with h | h <;> simp [h]

theorem rk_arr (w : BitVec 32) : w &&& 0xFFFFFFFC#32 = BitVec.ofNat 32 (w.toNat / 4 * 4) := by
  have : BitVec.ofNat 32 (w.toNat / 4 * 4) = (w >>> 2) <<< 2 := by
    apply BitVec.eq_of_toNat_eq
    simp [Nat.shiftRight_eq_div_pow, Nat.shiftLeft_eq]
  rw [this]
  ext i hi
  interval_cases i <;> simp

theorem rk_int (w : BitVec 32) :
    ((w &&& 0xFFFFFFFC#32).sshiftRight 2).toInt = signed30 (w.toNat / 4) := by
  rw [rk_arr, BitVec.toInt_sshiftRight, Int.shiftRight_eq_div_pow, BitVec.toInt_eq_toNat_cond,
    BitVec.toNat_ofNat]
  have h := w.isLt
  have h2 : w.toNat / 4 * 4 % 2 ^ 32 = w.toNat / 4 * 4 := Nat.mod_eq_of_lt (by omega)
  rw [h2]
  unfold signed30
  split <;> split <;> omega

theorem rk_bits (w : BitVec 32) :
    (((w &&& 0xFFFFFFFC#32).setWidth 64) <<< (32 : Nat)).toNat = w.toNat / 4 * 2 ^ 34 := by
  have h := w.isLt
  have h2 : w.toNat / 4 * 4 % 2 ^ 32 = w.toNat / 4 * 4 := Nat.mod_eq_of_lt (by omega)
  rw [rk_arr, BitVec.toNat_shiftLeft, BitVec.toNat_setWidth, BitVec.toNat_ofNat, h2,
    Nat.shiftLeft_eq]
  omega

theorem signed30_abs {n : Nat} (h : n < 2 ^ 30) : |signed30 n| ≤ 2 ^ 53 := by
  unfold signed30; split <;> rw [abs_le] <;> constructor <;> omega

theorem isF64_int {n : ℤ} (h : |n| ≤ 2 ^ 53) : IsF64 n := by
  refine ⟨isFloat_int h, ?_⟩
  have h1 : |(n : ℚ)| ≤ 2 ^ 53 := by exact_mod_cast h
  exact h1.trans_lt (pow_lt_pow_right₀ (by norm_num) (by norm_num))

theorem rkToF8_eq (w : BitVec 32) : rkToF8 w = rkValue w.toNat := by
  have h := w.isLt
  have hs := signed30_abs (n := w.toNat / 4) (by omega)
  unfold rkToF8 rkValue
  dsimp only
  have hV : (if w.toNat / 2 % 2 = 1 then F64.fin (signed30 (w.toNat / 4))
      else F64.ofBits (w.toNat / 4 * 2 ^ 34)).Valid := by
    split
    · exact isF64_int hs
    · exact ofBits_valid _
  have e : (if w &&& 2#32 ≠ 0#32 then F64.ofInt (((w &&& 0xFFFFFFFC#32).sshiftRight 2).toInt)
      else F64.ofBits (((w &&& 0xFFFFFFFC#32).setWidth 64) <<< (32 : Nat)).toNat) =
      (if w.toNat / 2 % 2 = 1 then F64.fin (signed30 (w.toNat / 4))
      else F64.ofBits (w.toNat / 4 * 2 ^ 34)) := by
    rw [rk_int, rk_bits, ofInt_small hs]
    by_cases h2 : w.toNat / 2 % 2 = 1
    · rw [if_pos h2, if_pos ((rk_and2 w).2 h2)]
    · rw [if_neg h2, if_neg (fun h' => h2 ((rk_and2 w).1 h'))]
  rw [e, rk_c]
  by_cases h3 : w.toNat % 2 = 1
  · rw [if_pos h3, if_pos h3]
    rw [ofInt_small (by norm_num)]
    norm_num
  · rw [if_neg h3, if_neg h3, ofInt_small (by norm_num)]
    have := div_one hV
    norm_num at this ⊢
    exact this

/-- A shifted word with a flag in the two low bits. -/
theorem shl_or_toNat (x : BitVec 32) {f : Nat} (hf : f < 4) :
    ((x <<< (2 : Nat)) ||| BitVec.ofNat 32 f).toNat = x.toNat % 2 ^ 30 * 4 + f := by
  have h := x.isLt
  have e : (x.toNat <<< 2) % 2 ^ 32 = (x.toNat % 2 ^ 30) <<< 2 := by
    rw [Nat.shiftLeft_eq, Nat.shiftLeft_eq]; omega
  rw [BitVec.toNat_or, BitVec.toNat_shiftLeft, BitVec.toNat_ofNat, e, Nat.or_comm,
    Nat.mod_eq_of_lt (by omega : f < 2 ^ 32), or_shift (by simpa using hf)]
  omega

theorem ofInt32_mod (n : Int) : ((BitVec.ofInt 32 n).toNat % 2 ^ 30 : Int) = n % 2 ^ 30 := by
  rw [BitVec.toNat_ofInt]
  omega

/-- 30-bit two's complement reduction of an integer. -/
theorem signed30_of_mod {k : Nat} {n : Int} (h : (k : Int) = n % 2 ^ 30) (h1 : -2 ^ 29 ≤ n)
    (h2 : n < 2 ^ 29) : signed30 k = n := by
  unfold signed30; split <;> omega

theorem rkValue_int {k f : Nat} (hf : f = 2 ∨ f = 3) : rkValue (k * 4 + f) =
    if f = 3 then F64.div (.fin (signed30 k)) (.fin 100) else .fin (signed30 k) := by
  have h1 : (k * 4 + f) / 4 = k := by omega
  have h2 : (k * 4 + f) / 2 % 2 = 1 := by omega
  unfold rkValue
  simp only [h1, h2, if_true]
  rcases hf with rfl | rfl
  · rw [if_neg (by omega), if_neg (by norm_num)]
  · rw [if_pos (by omega), if_pos rfl]

theorem rk_i8 (n : Int) : rkToF8 (i8ToRk n) = .fin (signed30 (n % 2 ^ 30).toNat) := by
  rw [rkToF8_eq, i8ToRk, shl_or_toNat _ (by norm_num), rkValue_int (Or.inl rfl), if_neg (by norm_num)]
  have := ofInt32_mod n
  congr 3
  omega

end Rxls
