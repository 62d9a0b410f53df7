import Verif.Lemmas.IsInt
import Verif.Lemmas.RkEncode

/-! # Date and time parts of timestamps, accelerated RK encoding: C70, C71 -/

namespace Rxls

/-! ## C70 -/

private theorem remNonzero_int {n : Int} (h : |n| ≤ 2 ^ 53) :
    F64.remNonzero (F64.ofInt n) 86400000 = decide (n % 86400000 ≠ 0) := by
  rw [ofInt_small h]
  have h1 := Int.emod_add_mul_ediv n 86400000
  have hf : ⌊(n : ℚ) / 86400000⌋ = n / 86400000 := by
    have := Rat.floor_intCast_div_natCast n 86400000
    simpa using this
  have : ((n : ℚ) / 86400000 ≠ ((⌊(n : ℚ) / 86400000⌋ : ℤ) : ℚ)) ↔ n % 86400000 ≠ 0 := by
    rw [hf, ne_eq, ne_eq, not_iff_not, div_eq_iff (by norm_num)]
    constructor
    · intro e
      have e' : n = n / 86400000 * 86400000 := by exact_mod_cast e
      omega
    · intro e
      have e' : n = n / 86400000 * 86400000 := by omega
      exact_mod_cast e'
  simp only [F64.remNonzero, decide_eq_decide]
  exact this

/-- C70: `dt_has_t` says whether some timestamp is not a midnight, for every array of timestamps up to
285 000 years from 1970. -/
theorem C70_time_part (arr : List Int) (h : ∀ n ∈ arr, |n| ≤ 2 ^ 53) :
    dtHasT arr = true ↔ ∃ n ∈ arr, n % 86400000 ≠ 0 := by
  unfold dtHasT
  rw [List.any_eq_true]
  constructor
  · rintro ⟨n, hn, e⟩
    rw [remNonzero_int (h n hn)] at e
    exact ⟨n, hn, by simpa using e⟩
  · rintro ⟨n, hn, e⟩
    exact ⟨n, hn, by rw [remNonzero_int (h n hn)]; simpa using e⟩

example : dtHasT [1704067200000, -86400000] = false ∧ dtHasT [1704067200000, -1] = true := by
  decide +kernel

private theorem blt_int {n : Int} (h : |n| ≤ 2 ^ 53) :
    F64.blt (.fin 86400000) (F64.ofInt n) = decide (86400000 < n) := by
  rw [ofInt_small h]
  simp only [F64.blt, decide_eq_decide]
  exact_mod_cast Iff.rfl

/-- C70, the part that holds for `dt_has_d`: on timestamps from 1970 on other than midnight of
1970-01-02 it says whether some timestamp is outside 1970-01-01 (the day that stands for a mere time).
Missing: earlier timestamps and that midnight, where it is false. -/
theorem C70_date_part_partial (arr : List Int)
    (h : ∀ n ∈ arr, 0 ≤ n ∧ n ≤ 2 ^ 53 ∧ n ≠ 86400000) :
    dtHasD arr = true ↔ ∃ n ∈ arr, n / 86400000 ≠ 0 := by
  unfold dtHasD
  rw [List.any_eq_true]
  constructor
  · rintro ⟨n, hn, e⟩
    obtain ⟨h0, h1, h2⟩ := h n hn
    rw [blt_int (by rw [abs_of_nonneg h0]; exact h1)] at e
    have : 86400000 < n := by simpa using e
    exact ⟨n, hn, by omega⟩
  · rintro ⟨n, hn, e⟩
    obtain ⟨h0, h1, h2⟩ := h n hn
    refine ⟨n, hn, ?_⟩
    rw [blt_int (by rw [abs_of_nonneg h0]; exact h1)]
    have : 86400000 < n := by omega
    simpa using this

example : dtHasD [3600000, 86399999] = false ∧ dtHasD [3600000, 86400001] = true := by decide +kernel

/-- C70, exactly what `dt_has_d` computes: whether some timestamp is later than midnight of 1970-01-02. -/
theorem C70_date_part_exact (arr : List Int) (h : ∀ n ∈ arr, |n| ≤ 2 ^ 53) :
    dtHasD arr = true ↔ ∃ n ∈ arr, 86400000 < n := by
  unfold dtHasD
  rw [List.any_eq_true]
  constructor
  · rintro ⟨n, hn, e⟩
    rw [blt_int (h n hn)] at e
    exact ⟨n, hn, by simpa using e⟩
  · rintro ⟨n, hn, e⟩
    exact ⟨n, hn, by rw [blt_int (h n hn)]; simpa using e⟩

/-- C70 does not hold for dates: no Excel date of the years 1900 to 1969, nor 1970-01-02 itself, is ever
seen as a date. -/
theorem C70_old_dates_missed (serials : List Nat) (h : ∀ n ∈ serials, 1 ≤ n ∧ n ≤ 25570) :
    dtHasD (serials.map fun n : Nat => f8ToMsWin (.fin (n : ℚ))) = false := by
  unfold dtHasD
  rw [List.any_eq_false]
  intro m hm
  obtain ⟨n, hn, rfl⟩ := List.mem_map.1 hm
  obtain ⟨h0, h1⟩ := h n hn
  have hc : ((n : ℕ) : ℚ) = (((n : ℤ)) : ℚ) := by norm_cast
  have e := f8ToMsWin_int (n := (n : ℤ)) (by rw [abs_le]; constructor <;> omega)
  rw [← hc] at e
  rw [e, blt_int (by rw [abs_le]; constructor <;> split_ifs <;> omega)]
  have : ¬ (86400000 < ((n : ℤ) - (if (n : ℤ) < 1 then 0 else if (n : ℤ) < 60 then 25568 else 25569)) * 86400000) := by
    split_ifs <;> omega
  simpa using this

example : f8ToMsWin (.fin 25570) = 86400000 ∧ excelDate 25570 = some ⟨1970, 1, 2⟩ ∧
    dtHasD [86400000] = false ∧ dtHasD [-86400000] = false := by
  refine ⟨by decide +kernel, ?_, by decide +kernel, by decide +kernel⟩
  have : nextDay^[25509] ⟨1900, 3, 1⟩ = ⟨1970, 1, 2⟩ := by
    rw [Function.iterate_succ_apply', steps_1900_03_01]; rfl
  simp [excelDate, this]

/-! ## C71 -/

private theorem i32_i64 {v : F64} (h : F64.toI32 v = F64.toI64 v) :
    BitVec.ofInt 32 (F64.toI64 v) = BitVec.ofInt 32 (F64.toI32 v) := by rw [h]

/-- C71: the accelerated encoder gives the same word as the plain one for every NaN, infinity, and
finite number below `2^31 - 1` in magnitude, whether whole or not, and for every number that is not
whole. -/
theorem C71_kernels_agree (x : F64)
    (h : ∀ q, x = .fin q → |q| ≤ 2 ^ 31 - 2 ∨ q.den ≠ 1) : guF8ToRk x = f8ToRk x := by
  unfold guF8ToRk f8ToRk
  split
  · split
    · next hw =>
      cases x with
      | nan => simp [F64.trunc, F64.beq] at hw
      | inf s =>
        rw [milli_fin]
        simp only [F64.add, F64.toI64, F64.toI32]
        decide
      | fin q =>
        rcases h q rfl with hq | hq
        · rw [milli_fin]
          simp only [F64.add]
          have hm := abs_le.1 milli_err
          have hq' := abs_le.1 hq
          have hs : |q + rndQ (1 / 1000)| ≤ 2 ^ 31 - 1 := by
            rw [abs_le]; constructor <;> linarith [hm.1, hm.2, hq'.1, hq'.2]
          have hb : |rndQ (q + rndQ (1 / 1000))| ≤ ((2 ^ 31 - 1 : ℤ) : ℚ) :=
            rndQ_abs_le (isFloat_int (by norm_num)) (hs.trans (by norm_num))
          have hr : rnd (q + rndQ (1 / 1000)) = .fin (rndQ (q + rndQ (1 / 1000))) :=
            rnd_small (k := 31) (lt_of_le_of_lt hs (by norm_num)) (by norm_num)
          rw [hr]
          have ht : -(2 ^ 31) ≤ F64.truncQ (rndQ (q + rndQ (1 / 1000))) ∧
              F64.truncQ (rndQ (q + rndQ (1 / 1000))) < 2 ^ 31 := by
            have hb' := abs_le.1 hb
            generalize rndQ (q + rndQ (1 / 1000)) = z at hb'
            unfold F64.truncQ
            push_cast at hb'
            split
            · constructor
              · have := Int.le_floor (a := z) (z := 0)
                have : (0 : ℤ) ≤ ⌊z⌋ := Int.floor_nonneg.2 (by assumption)
                omega
              · rw [Int.floor_lt]; push_cast; linarith [hb'.2]
            · constructor
              · have : (-(2 ^ 31 : ℤ) - 1) < ⌈z⌉ := by
                  rw [Int.lt_ceil]; push_cast; linarith [hb'.1]
                omega
              · have : ⌈z⌉ ≤ 0 := Int.ceil_le.2 (by push_cast; linarith)
                omega
          rw [i32_i64]
          simp only [F64.toI32, F64.toI64]
          rw [if_pos ht, if_pos ⟨by omega, by omega⟩]
        · next hr =>
          exfalso
          have h1 : q = (F64.truncQ q : ℚ) := by
            cases hn : npRound (.fin q) 2 with
            | nan => rw [hn] at hr; simp [F64.beq] at hr
            | inf s => rw [hn] at hr; simp [F64.beq] at hr
            | fin r =>
              rw [hn] at hr hw
              simp [F64.beq, F64.trunc] at hr hw
              rw [hw, hr]
          exact hq (by rw [h1]; exact Rat.den_intCast _)
    · rfl
  · rfl

example : guF8ToRk (rnd (-1234 / 100)) = f8ToRk (rnd (-1234 / 100)) ∧
    guF8ToRk (.fin 2147483646) = f8ToRk (.fin 2147483646) := by decide +kernel

/-- C71, beyond: a whole number from `2^31` on becomes the RK number 0 in the plain encoder, and the RK
number of its low 30 bits in the accelerated one, so the two installations write different words. -/
theorem C71_large {n : ℤ} (h0 : 2 ^ 31 ≤ n) (h1 : n < 2 ^ 40) :
    f8ToRk (.fin n) = 2#32 ∧ guF8ToRk (.fin n) = i8ToRk n := by
  have hnq : (2 ^ 31 : ℚ) ≤ n := by exact_mod_cast h0
  have hnq2 : (n : ℚ) < 2 ^ 40 := by exact_mod_cast h1
  have hm := abs_le.1 milli_err
  have hlt : |(n : ℚ) + rndQ (1 / 1000)| < (2 : ℚ) ^ (41 : ℤ) := by
    rw [abs_lt]; norm_num at hnq hnq2 ⊢; constructor <;> linarith [hm.1, hm.2]
  have he3 := abs_le.1 ((rndQ_err_of_lt hlt (by norm_num)).trans
    (show (2 : ℚ) ^ (41 - 54 : ℤ) ≤ 1 / 8000 by norm_num))
  have ha : F64.add (.fin n) (rnd (1 / 1000)) = .fin (rndQ (n + rndQ (1 / 1000))) := by
    rw [milli_fin]
    simp only [F64.add]
    exact rnd_small hlt (by norm_num)
  have ht : F64.truncQ (rndQ (n + rndQ (1 / 1000))) = n := by
    refine truncQ_near (by omega) ?_ ?_ <;> linarith [hm.1, hm.2, he3.1, he3.2]
  have hr : npRound (.fin n) 2 = .fin n := npRound_int (by rw [abs_of_nonneg (by omega)]; omega)
  constructor
  · unfold f8ToRk
    rw [hr, beq_self, if_pos rfl]
    simp only [F64.trunc, truncQ_int]
    rw [beq_self, if_pos rfl, ha]
    simp only [F64.toI32, ht]
    rw [if_neg (by omega)]
    decide
  · unfold guF8ToRk i8ToRk
    rw [hr, beq_self, if_pos rfl]
    simp only [F64.trunc, truncQ_int]
    rw [beq_self, if_pos rfl, ha]
    simp only [F64.toI64, ht]
    rw [if_pos ⟨by omega, by omega⟩]

/-- C71, the negative side: below `-2^31 - 1` the plain encoder writes 0, the accelerated one the low bits of the next
whole number. -/
theorem C71_large_negative {n : ℤ} (h0 : n < -2 ^ 31 - 1) (h1 : -2 ^ 40 < n) :
    f8ToRk (.fin n) = 2#32 ∧ guF8ToRk (.fin n) = i8ToRk (n + 1) := by
  have hnq : (n : ℚ) < -2 ^ 31 - 1 := by exact_mod_cast h0
  have hnq2 : (-2 ^ 40 : ℚ) < n := by exact_mod_cast h1
  have hm := abs_le.1 milli_err
  have hlt : |(n : ℚ) + rndQ (1 / 1000)| < (2 : ℚ) ^ (41 : ℤ) := by
    rw [abs_lt]; norm_num at hnq hnq2 ⊢; constructor <;> linarith [hm.1, hm.2]
  have he3 := abs_le.1 ((rndQ_err_of_lt hlt (by norm_num)).trans
    (show (2 : ℚ) ^ (41 - 54 : ℤ) ≤ 1 / 8000 by norm_num))
  have ha : F64.add (.fin n) (rnd (1 / 1000)) = .fin (rndQ (n + rndQ (1 / 1000))) := by
    rw [milli_fin]
    simp only [F64.add]
    exact rnd_small hlt (by norm_num)
  have ht : F64.truncQ (rndQ (n + rndQ (1 / 1000))) = n + 1 := by
    refine truncQ_near_neg (by omega) ?_ ?_ <;> push_cast <;> linarith [hm.1, hm.2, he3.1, he3.2]
  have hr : npRound (.fin n) 2 = .fin n := npRound_int (by rw [abs_of_neg (by omega)]; omega)
  constructor
  · unfold f8ToRk
    rw [hr, beq_self, if_pos rfl]
    simp only [F64.trunc, truncQ_int]
    rw [beq_self, if_pos rfl, ha]
    simp only [F64.toI32, ht]
    rw [if_neg (by omega)]
    decide
  · unfold guF8ToRk i8ToRk
    rw [hr, beq_self, if_pos rfl]
    simp only [F64.trunc, truncQ_int]
    rw [beq_self, if_pos rfl, ha]
    simp only [F64.toI64, ht]
    rw [if_pos ⟨by omega, by omega⟩]

example : rkToF8 (f8ToRk (.fin 4294967301)) = .fin 0 ∧
    rkToF8 (guF8ToRk (.fin 4294967301)) = .fin 5 ∧
    rkToF8 (guF8ToRk (.fin (-4294967301))) = .fin (-4) := by decide +kernel

private theorem two_bits : ∀ i : Fin 32, ¬ (i : Nat) < 2 → (2#32)[(i : Nat)] = false := by decide

theorem i8ToRk_zero (n : ℤ) : i8ToRk n = 2#32 ↔ (2 ^ 30 : ℤ) ∣ n := by
  have h1 : i8ToRk n = 2#32 ↔ BitVec.ofInt 32 n <<< (2 : Nat) = 0#32 := by
    unfold i8ToRk
    constructor
    · intro h
      ext i hi
      have := congrArg (fun v : BitVec 32 => v[i]) h
      simp only [BitVec.getElem_or] at this
      by_cases h2 : i < 2
      · simp [h2]
      · have h3 : (2#32)[i] = false := by
          exact two_bits ⟨i, hi⟩ h2
        rw [h3] at this
        simpa using this
    · intro h
      rw [h]
      rfl
  rw [h1, ← BitVec.toNat_inj]
  simp only [BitVec.toNat_shiftLeft, BitVec.toNat_ofInt, BitVec.toNat_ofNat, Nat.shiftLeft_eq]
  omega

/-- C71, exactly, for whole numbers below `2^40` in magnitude: the two encoders agree in the range of int32, and beyond
it on the numbers whose low 30 bits are zero after the addition of 0.001 and truncation. -/
theorem C71_exact {n : ℤ} (h : |n| < 2 ^ 40) :
    guF8ToRk (.fin n) = f8ToRk (.fin n) ↔
      (-2 ^ 31 - 1 ≤ n ∧ n < 2 ^ 31) ∨ (2 ^ 30 : ℤ) ∣ (if n < 0 then n + 1 else n) := by
  obtain ⟨hl, hu⟩ := abs_lt.1 h
  by_cases hbig : 2 ^ 31 ≤ n
  · obtain ⟨e1, e2⟩ := C71_large hbig hu
    rw [e1, e2, i8ToRk_zero, if_neg (by omega)]
    exact ⟨fun h => .inr h, fun h => h.resolve_left (by omega)⟩
  · by_cases hneg : n < -2 ^ 31 - 1
    · obtain ⟨e1, e2⟩ := C71_large_negative hneg (by omega)
      rw [e1, e2, i8ToRk_zero, if_pos (by omega)]
      exact ⟨fun h => .inr h, fun h => h.resolve_left (by omega)⟩
    · refine iff_of_true ?_ (.inl ⟨by omega, by omega⟩)
      by_cases hs : |n| ≤ 2 ^ 31 - 2
      · refine C71_kernels_agree _ fun q hq => .inl ?_
        cases hq
        exact_mod_cast hs
      · have : n = 2 ^ 31 - 1 ∨ n = -2 ^ 31 + 1 ∨ n = -2 ^ 31 ∨ n = -2 ^ 31 - 1 := by
          rw [abs_le] at hs
          omega
        rcases this with rfl | rfl | rfl | rfl <;> decide +kernel

example : guF8ToRk (.fin 3221225472) = f8ToRk (.fin 3221225472) ∧ guF8ToRk (.fin 3221225473) ≠ f8ToRk (.fin 3221225473) ∧
    guF8ToRk (.fin (-3221225473)) = f8ToRk (.fin (-3221225473)) := by decide +kernel

end Rxls
