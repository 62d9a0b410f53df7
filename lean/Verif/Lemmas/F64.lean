import Verif.Spec.F64
import Mathlib.Tactic.Linarith
import Mathlib.Tactic.Positivity
import Mathlib.Tactic.Ring
import Mathlib.Tactic.FieldSimp
import Mathlib.Tactic.NormNum
import Mathlib.Tactic.Push
import Mathlib.Algebra.Order.Round

/-! Lemmas about rounding: exactness, nearest, monotone, error bounds. -/

namespace Rxls

/-! ### Nearest integer -/

theorem rneInt_int (n : ℤ) : rneInt (n : ℚ) = n := by
  simp [rneInt]

theorem rneInt_cases (q : ℚ) : (rneInt q = ⌊q⌋ ∧ q - ⌊q⌋ ≤ 1 / 2) ∨
    (rneInt q = ⌊q⌋ + 1 ∧ 1 / 2 ≤ q - ⌊q⌋) := by
  unfold rneInt
  simp only []
  split
  · left; exact ⟨rfl, by linarith⟩
  split
  · right; exact ⟨rfl, by linarith⟩
  split
  · left; exact ⟨rfl, by linarith⟩
  · right; exact ⟨rfl, by linarith⟩

theorem rneInt_err (q : ℚ) : |(rneInt q : ℚ) - q| ≤ 1 / 2 := by
  have h1 := Int.floor_le q
  have h2 := Int.lt_floor_add_one q
  rcases rneInt_cases q with ⟨h, h'⟩ | ⟨h, h'⟩
  · rw [h, abs_le]; constructor <;> linarith
  · rw [h, abs_le]; push_cast; constructor <;> linarith

theorem rneInt_nearest (q : ℚ) (n : ℤ) : |(rneInt q : ℚ) - q| ≤ |(n : ℚ) - q| := by
  have h1 := Int.floor_le q
  have h2 := Int.lt_floor_add_one q
  rcases le_or_gt n ⌊q⌋ with hn | hn
  · have hn' : (n : ℚ) ≤ ⌊q⌋ := by exact_mod_cast hn
    have e : |(n : ℚ) - q| = q - n := by rw [abs_sub_comm, abs_of_nonneg]; linarith
    rw [e]
    rcases rneInt_cases q with ⟨h, h'⟩ | ⟨h, h'⟩
    · rw [h, abs_le]; constructor <;> linarith
    · rw [h, abs_le]; push_cast; constructor <;> linarith
  · have hn' : (⌊q⌋ : ℚ) + 1 ≤ n := by exact_mod_cast hn
    have e : |(n : ℚ) - q| = n - q := by rw [abs_of_nonneg]; linarith
    rw [e]
    rcases rneInt_cases q with ⟨h, h'⟩ | ⟨h, h'⟩
    · rw [h, abs_le]; constructor <;> linarith
    · rw [h, abs_le]; push_cast; constructor <;> linarith

/-- Monotone. -/
theorem rneInt_mono {x y : ℚ} (h : x ≤ y) : rneInt x ≤ rneInt y := by
  rcases eq_or_lt_of_le h with rfl | hlt
  · exact le_rfl
  by_contra hc
  push Not at hc
  have h1 := rneInt_nearest x (rneInt y)
  have h2 := rneInt_nearest y (rneInt x)
  have hc' : (rneInt y : ℚ) < rneInt x := by exact_mod_cast hc
  rcases abs_cases ((rneInt x : ℚ) - x) with ⟨a, _⟩ | ⟨a, _⟩ <;>
  rcases abs_cases ((rneInt y : ℚ) - x) with ⟨b, _⟩ | ⟨b, _⟩ <;>
  rcases abs_cases ((rneInt y : ℚ) - y) with ⟨c, _⟩ | ⟨c, _⟩ <;>
  rcases abs_cases ((rneInt x : ℚ) - y) with ⟨d, _⟩ | ⟨d, _⟩ <;>
  rw [a, b] at h1 <;> rw [c, d] at h2 <;> linarith

/-- Ties go to even. -/
theorem rneInt_tie (q : ℚ) (h : q - ⌊q⌋ = 1 / 2) : rneInt q % 2 = 0 := by
  unfold rneInt
  simp only []
  rw [if_neg (by linarith), if_neg (by linarith)]
  split <;> omega

theorem rneInt_neg (q : ℚ) : rneInt (-q) = -rneInt q := by
  have hf1 := Int.floor_le q
  have hf2 := Int.lt_floor_add_one q
  by_cases hi : q = ⌊q⌋
  · rw [hi, ← Int.cast_neg, rneInt_int, rneInt_int]
  have hf1' : (⌊q⌋ : ℚ) < q := lt_of_le_of_ne hf1 (fun h => hi h.symm)
  have hfn : ⌊-q⌋ = -⌊q⌋ - 1 := by
    rw [Int.floor_eq_iff]
    push_cast
    constructor <;> linarith
  unfold rneInt
  simp only [hfn]
  push_cast
  by_cases c1 : q - ⌊q⌋ < 1 / 2
  · rw [if_pos c1, if_neg (by linarith), if_pos (by linarith)]; ring
  by_cases c2 : 1 / 2 < q - ⌊q⌋
  · rw [if_neg c1, if_pos c2, if_pos (by linarith)]; ring
  rw [if_neg c1, if_neg c2, if_neg (by linarith), if_neg (by linarith)]
  by_cases c3 : ⌊q⌋ % 2 = 0
  · rw [if_pos c3, if_neg (by omega)]; ring
  · rw [if_neg c3, if_pos (by omega)]; ring

/-! ### Powers of two -/

theorem two_zpow_pos (e : ℤ) : (0 : ℚ) < (2 : ℚ) ^ e := zpow_pos (by norm_num) e

theorem two_zpow_le {a b : ℤ} (h : a ≤ b) : (2 : ℚ) ^ a ≤ (2 : ℚ) ^ b :=
  zpow_le_zpow_right₀ (by norm_num) h

theorem two_zpow_lt {a b : ℤ} (h : a < b) : (2 : ℚ) ^ a < (2 : ℚ) ^ b :=
  zpow_lt_zpow_right₀ (by norm_num) h

theorem two_zpow_lt_iff {a b : ℤ} : (2 : ℚ) ^ a < (2 : ℚ) ^ b ↔ a < b :=
  zpow_lt_zpow_iff_right₀ (by norm_num)

theorem two_zpow_add (a b : ℤ) : (2 : ℚ) ^ (a + b) = (2 : ℚ) ^ a * (2 : ℚ) ^ b :=
  zpow_add₀ (by norm_num) a b

/-- A non-negative power of two is an integer. -/
theorem two_zpow_int {k : ℤ} (h : 0 ≤ k) : ∃ n : ℤ, (2 : ℚ) ^ k = n := by
  obtain ⟨n, rfl⟩ := Int.eq_ofNat_of_zero_le h
  exact ⟨2 ^ n, by simp⟩

theorem log_le {q : ℚ} (h : q ≠ 0) : (2 : ℚ) ^ Int.log 2 |q| ≤ |q| := by
  have := Int.zpow_log_le_self (b := 2) (r := |q|) (by norm_num) (abs_pos.2 h)
  simpa using this

theorem lt_log (q : ℚ) : |q| < (2 : ℚ) ^ (Int.log 2 |q| + 1) := by
  have := Int.lt_zpow_succ_log_self (b := 2) (by norm_num) |q|
  simpa using this

theorem log_eq {q : ℚ} {L : ℤ} (h1 : (2 : ℚ) ^ L ≤ |q|) (h2 : |q| < (2 : ℚ) ^ (L + 1)) :
    Int.log 2 |q| = L := by
  have hq : q ≠ 0 := by
    rintro rfl
    have := two_zpow_pos L
    simp at h1; linarith
  have a := log_le hq
  have b := lt_log q
  have c := two_zpow_lt_iff.1 (lt_of_le_of_lt a h2)
  have d := two_zpow_lt_iff.1 (lt_of_le_of_lt h1 b)
  omega

theorem log_lt_of_abs_lt {q : ℚ} {k : ℤ} (hq : q ≠ 0) (h : |q| < (2 : ℚ) ^ k) :
    Int.log 2 |q| < k :=
  two_zpow_lt_iff.1 (lt_of_le_of_lt (log_le hq) h)

theorem ulpExp_ge (q : ℚ) : -1074 ≤ ulpExp q := le_max_right _ _

theorem ulpExp_le_of_abs_lt {q : ℚ} {k : ℤ} (hq : q ≠ 0) (h : |q| < (2 : ℚ) ^ k)
    (hk : -1021 ≤ k) : ulpExp q ≤ k - 53 := by
  unfold ulpExp
  have := log_lt_of_abs_lt hq h
  omega

/-- The magnitude is below `2^53` units. -/
theorem abs_lt_ulp (q : ℚ) : |q| < (2 : ℚ) ^ (ulpExp q + 53) :=
  lt_of_lt_of_le (lt_log q) (two_zpow_le (by unfold ulpExp; omega))

/-! ### Rounding -/

theorem rndQ_zero : rndQ 0 = 0 := by
  unfold rndQ
  rw [zero_div, show (0 : ℚ) = ((0 : ℤ) : ℚ) by simp, rneInt_int]
  simp

theorem rndQ_neg (q : ℚ) : rndQ (-q) = -rndQ q := by
  unfold rndQ
  have : ulpExp (-q) = ulpExp q := by unfold ulpExp; rw [abs_neg]
  rw [this, neg_div, rneInt_neg]
  push_cast; ring

/-- Multiples of the unit are fixed. -/
theorem rndQ_of_mul {q : ℚ} (n : ℤ) (h : q = n * (2 : ℚ) ^ ulpExp q) : rndQ q = q := by
  unfold rndQ
  have hp := two_zpow_pos (ulpExp q)
  have : q / (2 : ℚ) ^ ulpExp q = n := by
    rw [div_eq_iff (ne_of_gt hp)]; exact h
  rw [this, rneInt_int, ← h]

theorem ulpExp_le_of_float {m e : ℤ} {q : ℚ} (hm : |m| < 2 ^ 53) (he : -1074 ≤ e) (hq : q ≠ 0)
    (h : q = m * (2 : ℚ) ^ e) : ulpExp q ≤ e := by
  have hlt : |q| < (2 : ℚ) ^ (53 + e) := by
    rw [h, abs_mul, abs_of_pos (two_zpow_pos e), two_zpow_add]
    apply mul_lt_mul_of_pos_right _ (two_zpow_pos e)
    have : ((|m| : ℤ) : ℚ) < ((2 ^ 53 : ℤ) : ℚ) := by exact_mod_cast hm
    rw [Int.cast_abs] at this
    refine lt_of_lt_of_eq this ?_
    norm_num
  have := log_lt_of_abs_lt hq hlt
  unfold ulpExp; omega

/-- Rounding is exact on representable numbers. -/
theorem rndQ_exact {q : ℚ} (h : IsFloat q) : rndQ q = q := by
  obtain ⟨m, e, hm, he, hq⟩ := h
  rcases eq_or_ne q 0 with h0 | h0
  · rw [h0, rndQ_zero]
  have hle := ulpExp_le_of_float hm he h0 hq
  obtain ⟨n, hn⟩ := two_zpow_int (k := e - ulpExp q) (by omega)
  apply rndQ_of_mul (m * n)
  push_cast
  rw [← hn, mul_assoc, ← two_zpow_add, sub_add_cancel]
  exact hq

/-- Rounding gives representable numbers. -/
theorem rndQ_isFloat (q : ℚ) : IsFloat (rndQ q) := by
  have hp := two_zpow_pos (ulpExp q)
  have h1 : |q / (2 : ℚ) ^ ulpExp q| ≤ 2 ^ 53 := by
    rw [abs_div, abs_of_pos hp, div_le_iff₀ hp]
    have := abs_lt_ulp q
    rw [add_comm, two_zpow_add] at this
    exact le_of_lt this
  have h2 : |rneInt (q / (2 : ℚ) ^ ulpExp q)| ≤ 2 ^ 53 := by
    rw [abs_le] at h1 ⊢
    constructor
    · have := rneInt_mono h1.1
      rw [show (-(2 ^ 53) : ℚ) = ((-(2 ^ 53) : ℤ) : ℚ) by norm_num, rneInt_int] at this
      exact this
    · have := rneInt_mono h1.2
      rw [show ((2 ^ 53) : ℚ) = (((2 ^ 53) : ℤ) : ℚ) by norm_num, rneInt_int] at this
      exact this
  rcases lt_or_eq_of_le h2 with h3 | h3
  · exact ⟨_, _, h3, ulpExp_ge q, rfl⟩
  · have hge := ulpExp_ge q
    rcases abs_eq (by norm_num : (0 : ℤ) ≤ 2 ^ 53) |>.1 h3 with h4 | h4
    · refine ⟨2 ^ 52, ulpExp q + 1, by norm_num, by omega, ?_⟩
      unfold rndQ
      rw [h4, two_zpow_add]; norm_num; ring
    · refine ⟨-(2 ^ 52), ulpExp q + 1, by norm_num, by omega, ?_⟩
      unfold rndQ
      rw [h4, two_zpow_add]; norm_num; ring

/-- Half a unit in the last place. -/
theorem rndQ_err (q : ℚ) : |rndQ q - q| ≤ (2 : ℚ) ^ ulpExp q / 2 := by
  have hp := two_zpow_pos (ulpExp q)
  have := rneInt_err (q / (2 : ℚ) ^ ulpExp q)
  unfold rndQ
  have e : (rneInt (q / (2 : ℚ) ^ ulpExp q) : ℚ) * (2 : ℚ) ^ ulpExp q - q =
      ((rneInt (q / (2 : ℚ) ^ ulpExp q) : ℚ) - q / (2 : ℚ) ^ ulpExp q) * (2 : ℚ) ^ ulpExp q := by
    rw [sub_mul, div_mul_cancel₀ _ (ne_of_gt hp)]
  rw [e, abs_mul, abs_of_pos hp]
  calc _ ≤ 1 / 2 * (2 : ℚ) ^ ulpExp q := by
        apply mul_le_mul_of_nonneg_right this (le_of_lt hp)
    _ = _ := by ring

theorem rndQ_err_of_lt {q : ℚ} {k : ℤ} (h : |q| < (2 : ℚ) ^ k) (hk : -1021 ≤ k) :
    |rndQ q - q| ≤ (2 : ℚ) ^ (k - 54) := by
  rcases eq_or_ne q 0 with rfl | hq
  · rw [rndQ_zero, sub_zero, abs_zero]; exact le_of_lt (two_zpow_pos _)
  refine le_trans (rndQ_err q) ?_
  have h1 := two_zpow_le (ulpExp_le_of_abs_lt hq h hk)
  have h2 : (2 : ℚ) ^ (k - 53) = (2 : ℚ) ^ (k - 54) * 2 := by
    rw [show k - 53 = k - 54 + 1 by ring, two_zpow_add]; norm_num
  rw [h2] at h1
  linarith

/-- Relative error at most `2^-53`, plus half the smallest subnormal. -/
theorem rndQ_rel (q : ℚ) : |rndQ q - q| ≤ |q| * (2 : ℚ) ^ (-53 : ℤ) + (2 : ℚ) ^ (-1075 : ℤ) := by
  rcases eq_or_ne q 0 with rfl | hq
  · rw [rndQ_zero, sub_zero, abs_zero, zero_mul, zero_add]; exact le_of_lt (two_zpow_pos _)
  refine le_trans (rndQ_err q) ?_
  have hl := log_le hq
  have p1 := two_zpow_pos (-1075)
  have p2 := two_zpow_pos (-53)
  rcases le_total (Int.log 2 |q| - 52) (-1074) with h | h
  · have : ulpExp q = -1074 := by unfold ulpExp; omega
    rw [this, show (-1074 : ℤ) = -1075 + 1 by norm_num, two_zpow_add]
    have : 0 ≤ |q| * (2 : ℚ) ^ (-53 : ℤ) := mul_nonneg (abs_nonneg _) (le_of_lt p2)
    norm_num at this ⊢
  · have : ulpExp q = Int.log 2 |q| + (-53) + 1 := by unfold ulpExp; omega
    rw [this, two_zpow_add, two_zpow_add]
    have := mul_le_mul_of_nonneg_right hl (le_of_lt p2)
    have e : (2 : ℚ) ^ Int.log 2 |q| * (2 : ℚ) ^ (-53 : ℤ) * (2 : ℚ) ^ (1 : ℤ) / 2 =
      (2 : ℚ) ^ Int.log 2 |q| * (2 : ℚ) ^ (-53 : ℤ) := by
      rw [zpow_one]; ring
    rw [e]; linarith

/-- `rndQ q` is the representable number nearest to `q`. -/
theorem rndQ_nearest {f : ℚ} (hf : IsFloat f) (q : ℚ) : |rndQ q - q| ≤ |f - q| := by
  have hp := two_zpow_pos (ulpExp q)
  -- multiples of the unit
  have hmul : ∀ n : ℤ, |rndQ q - q| ≤ |(n : ℚ) * (2 : ℚ) ^ ulpExp q - q| := by
    intro n
    have h := rneInt_nearest (q / (2 : ℚ) ^ ulpExp q) n
    have e : ∀ z : ℤ, (z : ℚ) * (2 : ℚ) ^ ulpExp q - q =
        ((z : ℚ) - q / (2 : ℚ) ^ ulpExp q) * (2 : ℚ) ^ ulpExp q := by
      intro z
      rw [sub_mul, div_mul_cancel₀ _ (ne_of_gt hp)]
    unfold rndQ
    rw [e, e, abs_mul, abs_mul, abs_of_pos hp]
    exact mul_le_mul_of_nonneg_right h (le_of_lt hp)
  obtain ⟨m, e, hm, he, hfe⟩ := hf
  rcases le_or_gt (ulpExp q) e with hle | hlt
  · obtain ⟨n, hn⟩ := two_zpow_int (k := e - ulpExp q) (by omega)
    have : f = ((m * n : ℤ) : ℚ) * (2 : ℚ) ^ ulpExp q := by
      push_cast
      rw [← hn, mul_assoc, ← two_zpow_add, sub_add_cancel]; exact hfe
    rw [this]; exact hmul _
  · -- f is finer than the unit, hence smaller than the binade of q
    have hu : ulpExp q = Int.log 2 |q| - 52 := by unfold ulpExp at hlt ⊢; omega
    rcases eq_or_ne q 0 with rfl | hq
    · rw [rndQ_zero, sub_zero, abs_zero]; exact abs_nonneg _
    have hL := log_le hq
    have hfL : |f| < (2 : ℚ) ^ Int.log 2 |q| := by
      rw [hfe, abs_mul, abs_of_pos (two_zpow_pos e)]
      have h1 : ((|m| : ℤ) : ℚ) < ((2 ^ 53 : ℤ) : ℚ) := by exact_mod_cast hm
      rw [Int.cast_abs] at h1
      calc |(m : ℚ)| * (2 : ℚ) ^ e < (2 : ℚ) ^ (53 : ℤ) * (2 : ℚ) ^ e := by
            apply mul_lt_mul_of_pos_right _ (two_zpow_pos e)
            refine lt_of_lt_of_eq h1 ?_
            norm_num
        _ = (2 : ℚ) ^ (53 + e) := (two_zpow_add _ _).symm
        _ ≤ _ := two_zpow_le (by omega)
    have h52 : (2 : ℚ) ^ Int.log 2 |q| = ((2 ^ 52 : ℤ) : ℚ) * (2 : ℚ) ^ ulpExp q := by
      rw [hu, show Int.log 2 |q| = 52 + (Int.log 2 |q| - 52) by ring, two_zpow_add]
      norm_num
    rcases abs_cases q with ⟨hqa, hq0⟩ | ⟨hqa, hq0⟩
    · have := hmul (2 ^ 52)
      rw [← h52] at this
      refine le_trans this ?_
      rw [hqa] at hL hfL
      rw [abs_sub_comm, abs_of_nonneg (by rw [hqa]; linarith), abs_sub_comm, hqa]
      have := (abs_lt.1 hfL).2
      refine le_trans ?_ (le_abs_self _)
      linarith
    · have := hmul (-(2 ^ 52))
      have e2 : ((-(2 ^ 52) : ℤ) : ℚ) * (2 : ℚ) ^ ulpExp q = -(2 : ℚ) ^ Int.log 2 |q| := by
        rw [h52]; push_cast; ring
      rw [e2] at this
      refine le_trans this ?_
      rw [hqa] at hL hfL
      rw [abs_of_nonneg (by rw [hqa]; linarith), hqa]
      have := (abs_lt.1 hfL).1
      refine le_trans ?_ (le_abs_self _)
      linarith

/-- Rounding is monotone. -/
theorem rndQ_mono {x y : ℚ} (h : x ≤ y) : rndQ x ≤ rndQ y := by
  rcases eq_or_lt_of_le h with rfl | hlt
  · exact le_rfl
  by_contra hc
  push Not at hc
  have h1 := rndQ_nearest (rndQ_isFloat y) x
  have h2 := rndQ_nearest (rndQ_isFloat x) y
  rcases abs_cases (rndQ x - x) with ⟨a, _⟩ | ⟨a, _⟩ <;>
  rcases abs_cases (rndQ y - x) with ⟨b, _⟩ | ⟨b, _⟩ <;>
  rcases abs_cases (rndQ y - y) with ⟨c, _⟩ | ⟨c, _⟩ <;>
  rcases abs_cases (rndQ x - y) with ⟨d, _⟩ | ⟨d, _⟩ <;>
  rw [a, b] at h1 <;> rw [c, d] at h2 <;> linarith

theorem isFloat_int {n : ℤ} (h : |n| ≤ 2 ^ 53) : IsFloat n := by
  rcases lt_or_eq_of_le h with h | h
  · exact ⟨n, 0, h, by norm_num, by simp⟩
  · rcases abs_eq (by norm_num : (0 : ℤ) ≤ 2 ^ 53) |>.1 h with h4 | h4
    · exact ⟨2 ^ 52, 1, by norm_num, by norm_num, by rw [h4]; norm_num⟩
    · exact ⟨-(2 ^ 52), 1, by norm_num, by norm_num, by rw [h4]; norm_num⟩

theorem rndQ_int {n : ℤ} (h : |n| ≤ 2 ^ 53) : rndQ n = n := rndQ_exact (isFloat_int h)

theorem rnd_of_lt {q : ℚ} (h : |rndQ q| < 2 ^ 1024) : rnd q = .fin (rndQ q) := if_pos h

theorem rndQ_abs_le {q : ℚ} {f : ℚ} (hf : IsFloat f) (h : |q| ≤ f) : |rndQ q| ≤ f := by
  rw [abs_le] at h ⊢
  constructor
  · have := rndQ_mono h.1
    rw [rndQ_neg, rndQ_exact hf] at this
    exact this
  · have := rndQ_mono h.2
    rw [rndQ_exact hf] at this
    exact this

theorem isFloat_two_zpow {k : ℤ} (h : -1074 ≤ k) : IsFloat ((2 : ℚ) ^ k) :=
  ⟨1, k, by norm_num, h, by simp⟩

/-- Below `2^k` stays below or at `2^k`. -/
theorem rndQ_abs_le_two {q : ℚ} {k : ℤ} (hk : -1074 ≤ k) (h : |q| ≤ (2 : ℚ) ^ k) :
    |rndQ q| ≤ (2 : ℚ) ^ k := rndQ_abs_le (isFloat_two_zpow hk) h

theorem rnd_fin {q : ℚ} (h : |q| ≤ (2 : ℚ) ^ (1023 : ℤ)) : rnd q = .fin (rndQ q) := by
  apply rnd_of_lt
  refine lt_of_le_of_lt (rndQ_abs_le_two (by norm_num) h) ?_
  have := two_zpow_lt (a := 1023) (b := 1024) (by norm_num)
  exact_mod_cast this

theorem rnd_isF64 {q : ℚ} (h : IsF64 q) : rnd q = .fin q := by
  unfold rnd
  rw [rndQ_exact h.1, if_pos h.2]

theorem rnd_int {n : ℤ} (h : |n| ≤ 2 ^ 53) : rnd n = .fin n := by
  apply rnd_isF64 ⟨isFloat_int h, ?_⟩
  rw [← Int.cast_abs]
  have h1 : ((|n| : ℤ) : ℚ) ≤ (2 : ℚ) ^ 53 := by exact_mod_cast h
  have h2 : (2 : ℚ) ^ 53 < 2 ^ 1024 := pow_lt_pow_right₀ (by norm_num) (by norm_num)
  exact lt_of_le_of_lt h1 h2

theorem isFloat_neg {q : ℚ} (h : IsFloat q) : IsFloat (-q) := by
  obtain ⟨m, e, hm, he, hq⟩ := h
  exact ⟨-m, e, by rwa [abs_neg], he, by rw [hq]; push_cast; ring⟩

end Rxls
