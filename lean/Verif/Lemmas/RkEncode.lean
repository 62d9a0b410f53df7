import Mathlib.Tactic.Linarith
import Mathlib.Tactic.FieldSimp
import Mathlib.Tactic.Ring
import Verif.Lemmas.Casts

/-! # Lemmas for `f8_to_rk` -/

namespace Rxls

theorem truncQ_near {q : ℚ} {n : ℤ} (hn : 0 ≤ n) (h1 : (n : ℚ) ≤ q) (h2 : q < n + 1) :
    F64.truncQ q = n := by
  have h0 : (0 : ℚ) ≤ q := le_trans (by exact_mod_cast hn) h1
  rw [F64.truncQ, if_pos h0, Int.floor_eq_iff]
  exact ⟨h1, h2⟩

theorem truncQ_int (n : ℤ) : F64.truncQ n = n := by
  unfold F64.truncQ; split <;> simp

theorem rneInt_near {q : ℚ} {n : ℤ} (h : |q - n| < 1 / 2) : rneInt q = n := by
  have h1 := rneInt_err q
  have h2 : |(rneInt q : ℚ) - n| < 1 := by
    have : (rneInt q : ℚ) - n = (rneInt q - q) + (q - n) := by ring
    rw [this]
    exact lt_of_le_of_lt (abs_add_le _ _) (by linarith)
  have h3 : |rneInt q - n| < 1 := by exact_mod_cast h2
  have h4 := Int.abs_lt_one_iff.1 h3
  omega

theorem toI32_near {q : ℚ} {n : ℤ} (hn : 0 ≤ n) (hn2 : n < 2 ^ 31) (h1 : (n : ℚ) ≤ q)
    (h2 : q < n + 1) : F64.toI32 (.fin q) = n := by
  simp only [F64.toI32, truncQ_near hn h1 h2]
  rw [if_pos ⟨by omega, hn2⟩]

theorem beq_self (q : ℚ) : F64.beq (.fin q) (.fin q) = true := by simp [F64.beq]

theorem beq_false_of_ne {x y : F64} (h : x ≠ y) : F64.beq x y = false := by
  cases x <;> cases y <;> simp_all [F64.beq]

theorem small_le_1023 {q : ℚ} {k : ℤ} (h : |q| < (2 : ℚ) ^ k) (hk : k ≤ 1023) :
    |q| ≤ (2 : ℚ) ^ (1023 : ℤ) := h.le.trans (two_zpow_le hk)

theorem rnd_small {q : ℚ} {k : ℤ} (h : |q| < (2 : ℚ) ^ k) (hk : k ≤ 1023) :
    rnd q = .fin (rndQ q) := rnd_fin (small_le_1023 h hk)

/-- The constant `0.001`. -/
theorem milli_err : |rndQ (1 / 1000) - 1 / 1000| ≤ 1 / 10000 := by
  refine (rndQ_err_of_lt (k := 0) ?_ (by norm_num)).trans ?_
  · rw [abs_of_pos (by norm_num)]; norm_num
  · norm_num

theorem milli_fin : rnd (1 / 1000) = .fin (rndQ (1 / 1000)) :=
  rnd_small (k := 0) (by rw [abs_of_pos (by norm_num)]; norm_num) (by norm_num)

/-- Adding `0.001` to something just around a non-negative integer and truncating gives the integer. -/
theorem add_milli {y : ℚ} {n : ℤ} (hn : 0 ≤ n) (hn2 : n < 2 ^ 30)
    (hy : |y - n| ≤ 1 / 2000) :
    F64.toI32 (F64.add (.fin y) (rnd (1 / 1000))) = n := by
  have hnq : (0 : ℚ) ≤ n := by exact_mod_cast hn
  have hnq2 : (n : ℚ) < 2 ^ 30 := by exact_mod_cast hn2
  have hm := abs_le.1 milli_err
  have hy' := abs_le.1 hy
  set c := rndQ (1 / 1000) with hc
  have hlt : |y + c| < (2 : ℚ) ^ (31 : ℤ) := by
    rw [abs_lt]; norm_num at hnq2 ⊢; constructor <;> linarith [hm.1, hm.2, hy'.1, hy'.2]
  have he := rndQ_err_of_lt hlt (by norm_num)
  have he2 : (2 : ℚ) ^ (31 - 54 : ℤ) ≤ 1 / 10000 := by norm_num
  have he3 := abs_le.1 (he.trans he2)
  rw [milli_fin]
  simp only [F64.add]
  rw [rnd_small hlt (by norm_num)]
  refine toI32_near hn (by omega) ?_ ?_
  · linarith [hm.1, hm.2, hy'.1, hy'.2, he3.1]
  · linarith [hm.1, hm.2, hy'.1, hy'.2, he3.2]

theorem npRound_int {n : ℤ} (h : |n| ≤ 2 ^ 46) : npRound (.fin n) 2 = .fin n := by
  have h100 : |n * 100| ≤ 2 ^ 53 := by rw [abs_mul]; norm_num at h ⊢; omega
  unfold npRound
  simp only [F64.mul]
  rw [show ((n : ℚ) * 10 ^ 2) = ((n * 100 : ℤ) : ℚ) by push_cast; ring, rnd_int h100]
  simp only [F64.rint, rneInt_int, F64.div]
  rw [if_neg (by norm_num), show (((n * 100 : ℤ) : ℚ) / 10 ^ 2) = ((n : ℤ) : ℚ) by
    push_cast; ring]
  exact rnd_int (h.trans (by norm_num))

theorem f8ToRk_int {n : ℤ} (h0 : 0 ≤ n) (h1 : n < 2 ^ 29) :
    f8ToRk (.fin n) = (BitVec.ofInt 32 n <<< (2 : Nat)) ||| 2#32 := by
  unfold f8ToRk
  rw [npRound_int (by rw [abs_of_nonneg h0]; omega), beq_self, if_pos rfl]
  simp only [F64.trunc, truncQ_int]
  rw [beq_self, if_pos rfl, add_milli h0 (by omega) (by simp)]

theorem rk_f8_int {n : ℤ} (h0 : 0 ≤ n) (h1 : n < 2 ^ 29) : rkToF8 (f8ToRk (.fin n)) = .fin n := by
  rw [f8ToRk_int h0 h1]
  have := rk_i8 n
  rw [i8ToRk] at this
  rw [this, signed30_of_mod (n := n) (by omega) (by omega) (by omega)]

/-- Facts about `x = fl(k / 100)`. -/
theorem cent_err {k : ℤ} (h0 : 0 ≤ k) (h1 : k < 2 ^ 29) :
    |rndQ ((k : ℚ) / 100) - (k : ℚ) / 100| ≤ 1 / 2 ^ 31 := by
  have hk0 : (0 : ℚ) ≤ k := by exact_mod_cast h0
  have hk1 : (k : ℚ) < 2 ^ 29 := by exact_mod_cast h1
  refine (rndQ_err_of_lt (k := 23) ?_ (by norm_num)).trans (by norm_num)
  rw [abs_of_nonneg (by positivity)]
  norm_num at hk1 ⊢
  linarith

theorem cent_mul {k : ℤ} (h0 : 0 ≤ k) (h1 : k < 2 ^ 29) :
    F64.mul (.fin (rndQ ((k : ℚ) / 100))) (.fin 100) = .fin (rndQ (rndQ ((k : ℚ) / 100) * 100)) ∧
    |rndQ (rndQ ((k : ℚ) / 100) * 100) - k| ≤ 1 / 2000 := by
  have hk0 : (0 : ℚ) ≤ k := by exact_mod_cast h0
  have hk1 : (k : ℚ) < 2 ^ 29 := by exact_mod_cast h1
  have he := abs_le.1 (cent_err h0 h1)
  set x := rndQ ((k : ℚ) / 100)
  have hlt : |x * 100| < (2 : ℚ) ^ (30 : ℤ) := by
    rw [abs_lt]; norm_num at hk1 ⊢; norm_num at he; constructor <;> linarith [he.1, he.2]
  have he2 := abs_le.1 (rndQ_err_of_lt hlt (by norm_num))
  refine ⟨rnd_small hlt (by norm_num), ?_⟩
  rw [abs_le]
  norm_num at he he2 ⊢
  constructor <;> linarith [he.1, he.2, he2.1, he2.2]

theorem npRound_cent {k : ℤ} (h0 : 0 ≤ k) (h1 : k < 2 ^ 29) :
    npRound (.fin (rndQ ((k : ℚ) / 100))) 2 = .fin (rndQ ((k : ℚ) / 100)) := by
  have hk0 : (0 : ℚ) ≤ k := by exact_mod_cast h0
  have hk1 : (k : ℚ) < 2 ^ 29 := by exact_mod_cast h1
  obtain ⟨hm, he⟩ := cent_mul h0 h1
  unfold npRound
  rw [show ((10 : ℚ) ^ 2) = 100 by norm_num, hm]
  simp only [F64.rint, rneInt_near (lt_of_le_of_lt he (by norm_num)), F64.div]
  rw [if_neg (by norm_num)]
  refine rnd_small (k := 23) ?_ (by norm_num)
  rw [abs_of_nonneg (by positivity)]
  norm_num at hk1 ⊢
  linarith

theorem cent_not_int {k : ℤ} (h0 : 0 ≤ k) (h1 : k < 2 ^ 29) (h : k % 100 ≠ 0) (n : ℤ) :
    (n : ℚ) ≠ rndQ ((k : ℚ) / 100) := by
  intro hn
  have he := cent_err h0 h1
  rw [← hn] at he
  have h2 : |(n : ℚ) * 100 - k| < 1 := by
    have : (n : ℚ) * 100 - k = (n - (k : ℚ) / 100) * 100 := by ring
    rw [this, abs_mul]
    norm_num at he ⊢
    linarith
  have h3 : |n * 100 - k| < 1 := by exact_mod_cast h2
  have h4 := Int.abs_lt_one_iff.1 h3
  omega

theorem rk_f8_cent {k : ℤ} (h0 : 0 ≤ k) (h1 : k < 2 ^ 29) :
    rkToF8 (f8ToRk (rnd ((k : ℚ) / 100))) = rnd ((k : ℚ) / 100) := by
  have hk0 : (0 : ℚ) ≤ k := by exact_mod_cast h0
  have hk1 : (k : ℚ) < 2 ^ 29 := by exact_mod_cast h1
  by_cases hd : k % 100 = 0
  · obtain ⟨n, rfl⟩ : ∃ n, k = n * 100 := ⟨k / 100, by omega⟩
    have e : (((n * 100 : ℤ) : ℚ) / 100) = ((n : ℤ) : ℚ) := by push_cast; ring
    rw [e, rnd_int (by rw [abs_of_nonneg (by omega)]; omega)]
    exact rk_f8_int (by omega) (by omega)
  · have hr : rnd ((k : ℚ) / 100) = .fin (rndQ ((k : ℚ) / 100)) := by
      refine rnd_small (k := 23) ?_ (by norm_num)
      rw [abs_of_nonneg (by positivity)]
      norm_num at hk1 ⊢
      linarith
    rw [hr]
    obtain ⟨hm, he⟩ := cent_mul h0 h1
    unfold f8ToRk
    rw [npRound_cent h0 h1, beq_self, if_pos rfl]
    have hb : F64.beq (F64.trunc (.fin (rndQ ((k : ℚ) / 100)))) (.fin (rndQ ((k : ℚ) / 100))) = false := by
      simp only [F64.trunc, F64.beq, decide_eq_false_iff_not]
      exact cent_not_int h0 h1 hd _
    rw [hb, if_neg (by simp), hm, add_milli h0 (by omega) he, rkToF8_eq,
      shl_or_toNat _ (by norm_num), rkValue_int (Or.inr rfl), if_pos rfl]
    have := ofInt32_mod k
    rw [signed30_of_mod (n := k) (by omega) (by omega) (by omega), ← hr]
    simp only [F64.div]
    rw [if_neg (by norm_num)]

theorem toBits_ofBits {b : Nat} (hb : b < 2 ^ 64) (he : b / 2 ^ 52 % 2 ^ 11 ≠ 2047)
    (hz : b ≠ 2 ^ 63) : F64.toBits (F64.ofBits b) = b := by
  have hm : b % 2 ^ 52 < 2 ^ 52 := Nat.mod_lt _ (by norm_num)
  have hE : b / 2 ^ 52 % 2 ^ 11 < 2 ^ 11 := Nat.mod_lt _ (by norm_num)
  have hdecomp : b = (b / 2 ^ 63 % 2) * 2 ^ 63 + (b / 2 ^ 52 % 2 ^ 11) * 2 ^ 52 + b % 2 ^ 52 := by omega
  set m := b % 2 ^ 52
  set E := b / 2 ^ 52 % 2 ^ 11
  have hs : b / 2 ^ 63 % 2 = 0 ∨ b / 2 ^ 63 % 2 = 1 := by omega
  set a : ℚ := if E = 0 then (m : ℚ) * (2 : ℚ) ^ (-1074 : ℤ)
      else ((2 ^ 52 + m : ℕ) : ℚ) * (2 : ℚ) ^ ((E : ℤ) - 1075) with ha
  have hof : F64.ofBits b = .fin (if b / 2 ^ 63 % 2 = 1 then -a else a) := by
    unfold F64.ofBits
    dsimp only
    rw [if_neg he]
    simp only [decide_eq_true_eq]
    rfl
  have ha0 : 0 ≤ a := by
    rw [ha]; split <;> exact mul_nonneg (Nat.cast_nonneg _) (two_zpow_pos _).le
  have habs : |if b / 2 ^ 63 % 2 = 1 then -a else a| = a := by
    split
    · rw [abs_neg, abs_of_nonneg ha0]
    · rw [abs_of_nonneg ha0]
  have hulp : ∀ q : ℚ, |q| = a → (if (|q| / (2 : ℚ) ^ ulpExp q).floor.toNat < 2 ^ 52 then
      (|q| / (2 : ℚ) ^ ulpExp q).floor.toNat
      else (ulpExp q + 1075).toNat * 2 ^ 52 + ((|q| / (2 : ℚ) ^ ulpExp q).floor.toNat - 2 ^ 52)) =
      E * 2 ^ 52 + m := by
    intro q hq
    by_cases hE0 : E = 0
    · rw [if_pos hE0] at ha
      by_cases hm0 : m = 0
      · have : |q| = 0 := by rw [hq, ha, hm0]; simp
        rw [this, zero_div, show Rat.floor 0 = 0 from rfl]
        simp [hE0, hm0]
      · have hu : ulpExp q = -1074 := by
          have hq0 : q ≠ 0 := by
            intro h; rw [h, abs_zero] at hq
            rw [← hq] at ha
            have : (0 : ℚ) < (m : ℚ) * (2 : ℚ) ^ (-1074 : ℤ) := by
              have : (0 : ℚ) < m := by exact_mod_cast Nat.pos_of_ne_zero hm0
              exact mul_pos this (two_zpow_pos _)
            linarith
          have h1 := ulpExp_le_of_float (m := m) (e := -1074) (q := |q|)
            (by rw [abs_of_nonneg (by positivity)]; omega) (by norm_num)
            (abs_ne_zero.2 hq0) (by rw [hq, ha]; norm_cast)
          have h2 := ulpExp_ge q
          have h3 : ulpExp |q| = ulpExp q := by simp [ulpExp]
          omega
        have hf : |q| / (2 : ℚ) ^ ulpExp q = ((m : ℤ) : ℚ) := by
          rw [hu, hq, ha, mul_div_assoc, div_self (two_zpow_pos _).ne', mul_one]; norm_cast
        rw [hf]
        have : ((m : ℤ) : ℚ).floor = m := Rat.floor_intCast _
        rw [this]
        simp only [Int.toNat_natCast]
        rw [if_pos hm, hE0]; omega
    · rw [if_neg hE0] at ha
      have hl : Int.log 2 |q| = (E : ℤ) - 1075 + 52 := by
        have h52 : (2 : ℚ) ^ (52 : ℤ) = ((2 ^ 52 : ℕ) : ℚ) := by norm_num
        apply log_eq
        · rw [hq, ha, add_comm, two_zpow_add, h52]
          apply mul_le_mul_of_nonneg_right _ (two_zpow_pos _).le
          exact_mod_cast Nat.le_add_right _ _
        · rw [hq, ha, show (E : ℤ) - 1075 + 52 + 1 = 53 + (E - 1075) by ring, two_zpow_add]
          apply mul_lt_mul_of_pos_right _ (two_zpow_pos _)
          have h53 : (2 : ℚ) ^ (53 : ℤ) = ((2 ^ 53 : ℕ) : ℚ) := by norm_num
          rw [h53]
          exact_mod_cast (by omega : 2 ^ 52 + m < 2 ^ 53)
      have hu : ulpExp q = (E : ℤ) - 1075 := by unfold ulpExp; rw [hl]; omega
      have hf : |q| / (2 : ℚ) ^ ulpExp q = ((2 ^ 52 + m : ℕ) : ℤ) := by
        rw [hu, hq, ha, mul_div_assoc, div_self (two_zpow_pos _).ne', mul_one]; norm_cast
      rw [hf]
      have : (((2 ^ 52 + m : ℕ) : ℤ) : ℚ).floor = (2 ^ 52 + m : ℕ) := Rat.floor_intCast _
      rw [this, hu]
      simp only [Int.toNat_natCast]
      rw [if_neg (by omega)]
      omega
  rw [hof]
  unfold F64.toBits
  dsimp only
  rw [hulp _ habs]
  rcases hs with hs | hs
  · have hn : ¬ ((if b / 2 ^ 63 % 2 = 1 then -a else a) < 0) := by
      rw [if_neg (by omega)]; exact not_lt.2 ha0
    rw [if_neg hn]
    omega
  · have hapos : 0 < a := by
      rw [ha]
      split
      · rename_i hE0
        have hm0 : m ≠ 0 := by omega
        have : (0 : ℚ) < m := by exact_mod_cast Nat.pos_of_ne_zero hm0
        exact mul_pos this (two_zpow_pos _)
      · exact mul_pos (by positivity) (two_zpow_pos _)
    have hn : (if b / 2 ^ 63 % 2 = 1 then -a else a) < 0 := by
      rw [if_pos hs]; linarith
    rw [if_pos hn]
    omega

theorem rk_f8_bits {num : Nat} (h : num < 2 ^ 30) (hz : num ≠ 2 ^ 29)
    (h2 : npRound (F64.ofBits (num * 2 ^ 34)) 2 ≠ F64.ofBits (num * 2 ^ 34)) :
    rkToF8 (f8ToRk (F64.ofBits (num * 2 ^ 34))) = F64.ofBits (num * 2 ^ 34) := by
  set b := num * 2 ^ 34 with hb
  have hbne : F64.beq (F64.ofBits b) (npRound (F64.ofBits b) 2) = false := beq_false_of_ne (Ne.symm h2)
  by_cases he : b / 2 ^ 52 % 2 ^ 11 = 2047
  · by_cases hm : b % 2 ^ 52 = 0
    · exfalso
      apply h2
      have : ∃ s, F64.ofBits b = .inf s := by
        refine ⟨decide (b / 2 ^ 63 % 2 = 1), ?_⟩
        unfold F64.ofBits
        dsimp only
        rw [if_pos he, if_pos hm]
      obtain ⟨s, hs⟩ := this
      rw [hs]
      cases s <;> simp [npRound, F64.mul, F64.rint, F64.div]
    · have hnan : F64.ofBits b = .nan := by
        unfold F64.ofBits
        dsimp only
        rw [if_pos he, if_neg hm]
      rw [hnan]
      decide +kernel
  · unfold f8ToRk
    rw [hbne, if_neg (by simp), toBits_ofBits (by omega) he (by omega), rkToF8_eq, rk_arr]
    have e1 : ((BitVec.ofNat 64 b >>> (32 : Nat)).setWidth 32).toNat = num * 4 := by
      rw [BitVec.toNat_setWidth, BitVec.toNat_ushiftRight, BitVec.toNat_ofNat,
        Nat.shiftRight_eq_div_pow]
      omega
    rw [e1, BitVec.toNat_ofNat]
    have e2 : num * 4 / 4 * 4 % 2 ^ 32 = num * 4 := by omega
    rw [e2]
    unfold rkValue
    dsimp only
    rw [if_neg (by omega), if_neg (by omega)]
    rw [show num * 4 / 4 = num by omega]

theorem truncQ_near_neg {q : ℚ} {n : ℤ} (hn : n ≤ 0) (h1 : (n : ℚ) - 1 < q) (h2 : q ≤ n) :
    F64.truncQ q = n := by
  have hnq : (n : ℚ) ≤ 0 := by exact_mod_cast hn
  rw [F64.truncQ]
  split
  · have : q = 0 := by linarith
    subst this
    have : n = 0 := by
      have : (0 : ℚ) ≤ n := h2
      have : (0 : ℤ) ≤ n := by exact_mod_cast this
      omega
    simp [this]
  · rw [Int.ceil_eq_iff]
    exact ⟨h1, h2⟩

/-- Adding `0.001` to something just around a negative integer and truncating gives the next integer. -/
theorem add_milli_neg {y : ℚ} {n : ℤ} (hn : n < 0) (hn2 : -2 ^ 30 < n)
    (hy : |y - n| ≤ 1 / 2000) :
    F64.toI32 (F64.add (.fin y) (rnd (1 / 1000))) = n + 1 := by
  have hnq : (n : ℚ) ≤ -1 := by exact_mod_cast (show n ≤ -1 by omega)
  have hnq2 : (-2 ^ 30 : ℚ) < n := by exact_mod_cast hn2
  have hm := abs_le.1 milli_err
  have hy' := abs_le.1 hy
  set c := rndQ (1 / 1000) with hc
  have hlt : |y + c| < (2 : ℚ) ^ (31 : ℤ) := by
    rw [abs_lt]; norm_num at hnq2 ⊢; constructor <;> linarith [hm.1, hm.2, hy'.1, hy'.2]
  have he := rndQ_err_of_lt hlt (by norm_num)
  have he2 : (2 : ℚ) ^ (31 - 54 : ℤ) ≤ 1 / 10000 := by norm_num
  have he3 := abs_le.1 (he.trans he2)
  rw [milli_fin]
  simp only [F64.add]
  rw [rnd_small hlt (by norm_num)]
  have ht : F64.truncQ (rndQ (y + c)) = n + 1 := by
    refine truncQ_near_neg (by omega) ?_ ?_
    · push_cast; linarith [hm.1, hm.2, hy'.1, hy'.2, he3.1]
    · push_cast; linarith [hm.1, hm.2, hy'.1, hy'.2, he3.2]
  simp only [F64.toI32, ht]
  rw [if_pos ⟨by omega, by omega⟩]

theorem rk_f8_int_neg {n : ℤ} (h0 : n < 0) (h1 : -2 ^ 29 ≤ n) : rkToF8 (f8ToRk (.fin n)) = .fin ((n + 1 : ℤ) : ℚ) := by
  have e : f8ToRk (.fin n) = (BitVec.ofInt 32 (n + 1) <<< (2 : Nat)) ||| 2#32 := by
    unfold f8ToRk
    rw [npRound_int (by rw [abs_of_neg h0]; omega), beq_self, if_pos rfl]
    simp only [F64.trunc, truncQ_int]
    rw [beq_self, if_pos rfl, add_milli_neg h0 (by omega) (by simp)]
  have := rk_i8 (n + 1)
  rw [i8ToRk] at this
  rw [e, this, signed30_of_mod (n := n + 1) (by omega) (by omega) (by omega)]

theorem cent_lt {k : ℤ} (h1 : |k| ≤ 2 ^ 29) : |(k : ℚ) / 100| < (2 : ℚ) ^ (23 : ℤ) := by
  have h : |(k : ℚ)| ≤ 2 ^ 29 := by exact_mod_cast h1
  rw [abs_div, abs_of_pos (show (0 : ℚ) < 100 by norm_num)]
  norm_num at h ⊢
  linarith

theorem cent_err' {k : ℤ} (h1 : |k| ≤ 2 ^ 29) :
    |rndQ ((k : ℚ) / 100) - (k : ℚ) / 100| ≤ 1 / 2 ^ 31 :=
  (rndQ_err_of_lt (cent_lt h1) (by norm_num)).trans (by norm_num)

theorem cent_mul' {k : ℤ} (h1 : |k| ≤ 2 ^ 29) :
    F64.mul (.fin (rndQ ((k : ℚ) / 100))) (.fin 100) = .fin (rndQ (rndQ ((k : ℚ) / 100) * 100)) ∧
    |rndQ (rndQ ((k : ℚ) / 100) * 100) - k| ≤ 1 / 2000 := by
  have h : |(k : ℚ)| ≤ 2 ^ 29 := by exact_mod_cast h1
  have hk := abs_le.1 h
  have he := abs_le.1 (cent_err' h1)
  set x := rndQ ((k : ℚ) / 100)
  have hlt : |x * 100| < (2 : ℚ) ^ (30 : ℤ) := by
    rw [abs_lt]; norm_num at hk he ⊢; constructor <;> linarith [he.1, he.2, hk.1, hk.2]
  have he2 := abs_le.1 (rndQ_err_of_lt hlt (by norm_num))
  refine ⟨rnd_small hlt (by norm_num), ?_⟩
  rw [abs_le]
  norm_num at he he2 ⊢
  constructor <;> linarith [he.1, he.2, he2.1, he2.2]

theorem npRound_cent' {k : ℤ} (h1 : |k| ≤ 2 ^ 29) :
    npRound (.fin (rndQ ((k : ℚ) / 100))) 2 = .fin (rndQ ((k : ℚ) / 100)) := by
  obtain ⟨hm, he⟩ := cent_mul' h1
  unfold npRound
  rw [show ((10 : ℚ) ^ 2) = 100 by norm_num, hm]
  simp only [F64.rint, rneInt_near (lt_of_le_of_lt he (by norm_num)), F64.div]
  rw [if_neg (by norm_num)]
  exact rnd_small (cent_lt h1) (by norm_num)

theorem cent_not_int' {k : ℤ} (h1 : |k| ≤ 2 ^ 29) (h : k % 100 ≠ 0) (n : ℤ) :
    (n : ℚ) ≠ rndQ ((k : ℚ) / 100) := by
  intro hn
  have he := cent_err' h1
  rw [← hn] at he
  have h2 : |(n : ℚ) * 100 - k| < 1 := by
    have : (n : ℚ) * 100 - k = (n - (k : ℚ) / 100) * 100 := by ring
    rw [this, abs_mul]
    norm_num at he ⊢
    linarith
  have h3 : |n * 100 - k| < 1 := by exact_mod_cast h2
  have h4 := Int.abs_lt_one_iff.1 h3
  omega

theorem rk_f8_cent_neg {k : ℤ} (h0 : k < 0) (h1 : -2 ^ 29 ≤ k) (hd : k % 100 ≠ 0) :
    rkToF8 (f8ToRk (rnd ((k : ℚ) / 100))) = rnd (((k + 1 : ℤ) : ℚ) / 100) := by
  have hk : |k| ≤ 2 ^ 29 := by rw [abs_of_neg h0]; omega
  have hr : rnd ((k : ℚ) / 100) = .fin (rndQ ((k : ℚ) / 100)) := rnd_small (cent_lt hk) (by norm_num)
  rw [hr]
  obtain ⟨hm, he⟩ := cent_mul' hk
  unfold f8ToRk
  rw [npRound_cent' hk, beq_self, if_pos rfl]
  have hb : F64.beq (F64.trunc (.fin (rndQ ((k : ℚ) / 100)))) (.fin (rndQ ((k : ℚ) / 100))) = false := by
    simp only [F64.trunc, F64.beq, decide_eq_false_iff_not]
    exact cent_not_int' hk hd _
  rw [hb, if_neg (by simp), hm, add_milli_neg h0 (by omega) he, rkToF8_eq,
    shl_or_toNat _ (by norm_num), rkValue_int (Or.inr rfl), if_pos rfl]
  have := ofInt32_mod (k + 1)
  rw [signed30_of_mod (n := k + 1) (by omega) (by omega) (by omega)]
  simp only [F64.div]
  rw [if_neg (by norm_num)]

end Rxls
