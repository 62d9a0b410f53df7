import Verif.Lemmas.Serial

/-! # Lemmas for `f8_is_i8` -/

namespace Rxls

theorem pow10_pos (p : Nat) : (0 : ℚ) < 10 ^ p := by positivity

theorem tiny_le {p : Nat} (hp : p ≤ 15) : (2 : ℚ) ^ (-1075 : ℤ) * 10 ^ p ≤ (2 : ℚ) ^ (-60 : ℤ) := by
  have h1 : (10 : ℚ) ^ p ≤ 10 ^ 15 := pow_le_pow_right₀ (by norm_num) hp
  have h2 : (10 : ℚ) ^ 15 ≤ (2 : ℚ) ^ (50 : ℤ) := by norm_num
  calc (2 : ℚ) ^ (-1075 : ℤ) * 10 ^ p ≤ (2 : ℚ) ^ (-1075 : ℤ) * (2 : ℚ) ^ (50 : ℤ) :=
        mul_le_mul_of_nonneg_left (h1.trans h2) (two_zpow_pos _).le
    _ = (2 : ℚ) ^ (-1025 : ℤ) := by rw [← two_zpow_add]; norm_num
    _ ≤ (2 : ℚ) ^ (-60 : ℤ) := two_zpow_le (by norm_num)

theorem npRound_fin {q : ℚ} {p : Nat} (hp : p ≤ 15) (hq : |q| < (2 : ℚ) ^ (900 : ℤ)) :
    npRound (.fin q) p = .fin (rndQ (rneInt (rndQ (q * 10 ^ p)) / 10 ^ p)) := by
  have h1 : (10 : ℚ) ^ p ≤ 10 ^ 15 := pow_le_pow_right₀ (by norm_num) hp
  have h2 : (10 : ℚ) ^ 15 ≤ (2 : ℚ) ^ (50 : ℤ) := by norm_num
  have hlt : |q * 10 ^ p| ≤ (2 : ℚ) ^ (950 : ℤ) := by
    rw [abs_mul, abs_of_pos (pow10_pos p)]
    calc |q| * 10 ^ p ≤ (2 : ℚ) ^ (900 : ℤ) * (2 : ℚ) ^ (50 : ℤ) :=
          mul_le_mul hq.le (h1.trans h2) (pow10_pos p).le (two_zpow_pos _).le
      _ = (2 : ℚ) ^ (950 : ℤ) := by rw [← two_zpow_add]; norm_num
  have hy : |rndQ (q * 10 ^ p)| ≤ (2 : ℚ) ^ (950 : ℤ) := rndQ_abs_le_two (by norm_num) hlt
  have hn : |(rneInt (rndQ (q * 10 ^ p)) : ℚ)| ≤ (2 : ℚ) ^ (951 : ℤ) := by
    have he := rneInt_err (rndQ (q * 10 ^ p))
    have h3 : |(rneInt (rndQ (q * 10 ^ p)) : ℚ)| ≤
        |(rneInt (rndQ (q * 10 ^ p)) : ℚ) - rndQ (q * 10 ^ p)| + |rndQ (q * 10 ^ p)| := by
      have := abs_add_le ((rneInt (rndQ (q * 10 ^ p)) : ℚ) - rndQ (q * 10 ^ p)) (rndQ (q * 10 ^ p))
      simpa using this
    have h4 : (2 : ℚ) ^ (951 : ℤ) = (2 : ℚ) ^ (950 : ℤ) + (2 : ℚ) ^ (950 : ℤ) := by
      rw [show (951 : ℤ) = 950 + 1 from rfl, two_zpow_add]; ring
    have h5 : (1 : ℚ) ≤ (2 : ℚ) ^ (950 : ℤ) := by
      have := two_zpow_le (a := 0) (b := 950) (by norm_num); rwa [zpow_zero] at this
    rw [h4]
    calc _ ≤ _ := h3
      _ ≤ 1 / 2 + (2 : ℚ) ^ (950 : ℤ) := add_le_add he hy
      _ ≤ _ := add_le_add (le_trans (by norm_num) h5) le_rfl
  have hz : |(rneInt (rndQ (q * 10 ^ p)) : ℚ) / 10 ^ p| ≤ (2 : ℚ) ^ (1023 : ℤ) := by
    rw [abs_div, abs_of_pos (pow10_pos p)]
    have h10 : (1 : ℚ) ≤ 10 ^ p := one_le_pow₀ (by norm_num)
    calc |(rneInt (rndQ (q * 10 ^ p)) : ℚ)| / 10 ^ p ≤ |(rneInt (rndQ (q * 10 ^ p)) : ℚ)| :=
          div_le_self (abs_nonneg _) h10
      _ ≤ (2 : ℚ) ^ (951 : ℤ) := hn
      _ ≤ _ := two_zpow_le (by norm_num)
  unfold npRound
  simp only [F64.mul]
  rw [rnd_fin (hlt.trans (two_zpow_le (by norm_num)))]
  simp only [F64.rint, F64.div]
  rw [if_neg (pow10_pos p).ne', rnd_fin hz]

/-- `np.round` is within half a unit of the last kept digit, up to relative rounding errors. -/
theorem npRound_err {q : ℚ} {p : Nat} (hp : p ≤ 15) :
    |rndQ ((rneInt (rndQ (q * 10 ^ p)) : ℚ) / 10 ^ p) - q| ≤
      (1 / 2 + 1 / 2 ^ 40) / 10 ^ p + |q| / 2 ^ 50 := by
  set P : ℚ := 10 ^ p with hP
  have hPpos : 0 < P := pow10_pos p
  set y := rndQ (q * P) with hy
  set n := (rneInt y : ℚ) with hn
  have e1 := rndQ_rel (q * P)
  rw [abs_mul, abs_of_pos hPpos, ← hy] at e1
  have e2 := rneInt_err y
  rw [← hn] at e2
  have e3 := rndQ_rel (n / P)
  have t0 := tiny_le hp
  rw [← hP] at t0
  have tpos := two_zpow_pos (-1075)
  set t : ℚ := (2 : ℚ) ^ (-1075 : ℤ) with ht
  have t1 : t ≤ 1 / 2 ^ 60 / P := by
    rw [le_div_iff₀ hPpos]; norm_num at t0 ⊢; exact t0
  have hPinv : 1 / P ≤ 1 := by
    rw [div_le_one hPpos, hP]; exact one_le_pow₀ (by norm_num)
  have ht1 : t ≤ 1 / 2 ^ 60 := by
    have : t ≤ (2 : ℚ) ^ (-60 : ℤ) := two_zpow_le (by norm_num)
    norm_num at this ⊢; exact this
  have hPi : 0 < 1 / P := by positivity
  clear_value t
  have c53 : (2 : ℚ) ^ (-53 : ℤ) = 1 / 2 ^ 53 := by norm_num
  rw [c53] at e1 e3
  -- distance of n / P from q
  have d1 : |n / P - q| ≤ (1 / 2 + t) / P + |q| * (1 / 2 ^ 53) := by
    have : n / P - q = ((n - y) + (y - q * P)) / P := by field_simp; ring
    rw [this, abs_div, abs_of_pos hPpos, div_le_iff₀ hPpos]
    have h := abs_add_le (n - y) (y - q * P)
    have h5 : ((1 / 2 + t) / P + |q| * (1 / 2 ^ 53)) * P =
      1 / 2 + t + |q| * P * (1 / 2 ^ 53) := by field_simp
    rw [h5]; linarith
  have d2 : |n / P| ≤ |q| + |n / P - q| := by
    have := abs_add_le q (n / P - q); simpa using this
  have d3 : |rndQ (n / P) - q| ≤ |rndQ (n / P) - n / P| + |n / P - q| := by
    have := abs_add_le (rndQ (n / P) - n / P) (n / P - q); simpa using this
  have hq0 := abs_nonneg q
  have hti : t / P ≤ 1 / 2 ^ 60 / P := by
    rw [div_le_div_iff_of_pos_right hPpos]; exact ht1
  have s1 : (1 / 2 + t) / P = 1 / 2 * (1 / P) + t / P := by ring
  have s2 : (1 / 2 + 1 / 2 ^ 40) / P = 1 / 2 * (1 / P) + 1 / 2 ^ 40 * (1 / P) := by ring
  have s3 : 1 / 2 ^ 60 / P = 1 / 2 ^ 60 * (1 / P) := by ring
  rw [s1] at d1
  rw [s3] at hti t1
  rw [s2]
  have d4 : |n / P - q| ≤ (1 / 2 + 1 / 2 ^ 60) * (1 / P) + |q| * (1 / 2 ^ 53) := by linarith
  have d5 : |rndQ (n / P) - n / P| ≤ (|q| + ((1 / 2 + 1 / 2 ^ 60) * (1 / P) + |q| * (1 / 2 ^ 53))) *
      (1 / 2 ^ 53) + 1 / 2 ^ 60 * (1 / P) := by
    have : |n / P| * (1 / 2 ^ 53) ≤ (|q| + ((1 / 2 + 1 / 2 ^ 60) * (1 / P) + |q| * (1 / 2 ^ 53))) *
      (1 / 2 ^ 53) := mul_le_mul_of_nonneg_right (by linarith) (by norm_num)
    linarith
  set u := 1 / P
  norm_num at d4 d5 ⊢
  linarith

theorem npRound_whole {n : ℤ} {p : Nat} (h : |n| * 10 ^ p ≤ 2 ^ 53) :
    npRound (.fin n) p = .fin n := by
  have h100 : |n * 10 ^ p| ≤ 2 ^ 53 := by
    rw [abs_mul, abs_of_pos (show (0 : ℤ) < 10 ^ p by positivity)]; exact h
  have h1 : |n| ≤ 2 ^ 53 := by
    have : |n| * 1 ≤ |n| * 10 ^ p :=
      mul_le_mul_of_nonneg_left (one_le_pow₀ (by norm_num)) (abs_nonneg n)
    omega
  unfold npRound
  simp only [F64.mul]
  rw [show ((n : ℚ) * 10 ^ p) = ((n * 10 ^ p : ℤ) : ℚ) by push_cast; ring, rnd_int h100]
  simp only [F64.rint, rneInt_int, F64.div]
  rw [if_neg (pow10_pos p).ne', show (((n * 10 ^ p : ℤ) : ℚ) / 10 ^ p) = ((n : ℤ) : ℚ) by
    push_cast; field_simp]
  exact rnd_int h1

theorem toI64_trunc {q : ℚ} (h : |q| < 2 ^ 63) : F64.toI64 (.fin q) = F64.truncQ q := by
  have h' := abs_lt.1 h
  simp only [F64.toI64]
  rw [if_pos]
  unfold F64.truncQ
  split
  · exact ⟨by have := Int.floor_nonneg.2 (by assumption : 0 ≤ q); omega,
      Int.floor_lt.2 (by push_cast; exact h'.2)⟩
  · constructor
    · have : (-(2 ^ 63) - 1 : ℤ) < ⌈q⌉ := Int.lt_ceil.2 (by push_cast; linarith [h'.1])
      omega
    · have : ⌈q⌉ ≤ 0 := Int.ceil_le.2 (by push_cast; linarith)
      omega

theorem isI8_elem {q : ℚ} {p : Nat} (hp : p ≤ 15) (hq : |q| < 2 ^ 63)
    (h : F64.beq (F64.trunc (.fin q)) (npRound (.fin q) p) = true) :
    |(F64.truncQ q : ℚ) - q| ≤ (1 / 2 + 1 / 2 ^ 40) / 10 ^ p + |q| / 2 ^ 50 := by
  have hq2 : |q| < (2 : ℚ) ^ (900 : ℤ) := by
    refine hq.trans_le ?_
    have := two_zpow_le (a := 63) (b := 900) (by norm_num)
    exact le_trans (le_of_eq (by rw [← zpow_natCast]; rfl)) this
  rw [npRound_fin hp hq2] at h
  simp only [F64.trunc, F64.beq, decide_eq_true_eq] at h
  rw [h]
  exact npRound_err hp

end Rxls
