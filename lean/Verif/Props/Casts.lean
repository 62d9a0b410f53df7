import Verif.Lemmas.IsInt
import Verif.Lemmas.Strptime

/-! # Numeric conversions: C14-C24 -/

namespace Rxls

/-! ## Correct rounding

The float operations of the model round to the nearest binary64 number; this is what the remaining
theorems of this file mean by "correctly rounded". -/

/-- Support for C14-C22: `rndQ` returns a representable number, and no representable number is closer. -/
theorem C14_rounding_nearest (q : ℚ) :
    IsFloat (rndQ q) ∧ ∀ f, IsFloat f → |rndQ q - q| ≤ |f - q| :=
  ⟨rndQ_isFloat q, fun _ hf => rndQ_nearest hf q⟩

example : rndQ (1 / 10) = 3602879701896397 / 36028797018963968 := by decide +kernel

/-! ## C14 -/

/-- C14: every 32-bit RK word is decoded as MS-XLSB specifies. -/
theorem C14_rk_decode (w : BitVec 32) : rkToF8 w = rkValue w.toNat := rkToF8_eq w

/-- C14: arrays are decoded element by element. -/
theorem C14_rk_decode_array (ws : List (BitVec 32)) :
    rkToF8Array ws = ws.map fun w => rkValue w.toNat :=
  List.map_congr_left fun w _ => rkToF8_eq w

/-- C14: the result is always a binary64 value. -/
theorem C14_rk_decode_valid (w : BitVec 32) : (rkToF8 w).Valid := by
  rw [rkToF8_eq]
  have hw := w.isLt
  have hv : (if w.toNat / 2 % 2 = 1 then F64.fin (signed30 (w.toNat / 4))
      else F64.ofBits (w.toNat / 4 * 2 ^ 34)).Valid := by
    split
    · exact isF64_int (signed30_abs (by omega))
    · exact ofBits_valid _
  unfold rkValue
  dsimp only
  split
  · revert hv
    generalize (if w.toNat / 2 % 2 = 1 then F64.fin (signed30 (w.toNat / 4))
      else F64.ofBits (w.toNat / 4 * 2 ^ 34)) = v
    intro hv
    cases v with
    | nan => trivial
    | inf s => cases s <;> simp [F64.div, F64.Valid]
    | fin q =>
      simp only [F64.div]
      rw [if_neg (by norm_num)]
      unfold rnd
      split
      · exact ⟨rndQ_isFloat _, by assumption⟩
      · trivial
  · exact hv

-- 12345.67 stored as an integer in hundredths, -5, and a double.
example : rkToF8 (BitVec.ofNat 32 (1234567 * 4 + 3)) = rnd (1234567 / 100) ∧
    rkToF8 (BitVec.ofInt 32 (-5 * 4 + 2)) = .fin (-5) ∧
    rkToF8 0x3FF80000#32 = .fin (3 / 2) := by decide +kernel

/-! ## C15 -/

/-- C15: an integer survives exactly if it fits in 30 bits; otherwise it is reduced to 30 bits. -/
theorem C15_int_rk_roundtrip (n : Int) :
    rkToF8 (i8ToRk n) = .fin (signed30 (n % 2 ^ 30).toNat) ∧
    (rkToF8 (i8ToRk n) = .fin n ↔ -2 ^ 29 ≤ n ∧ n < 2 ^ 29) := by
  refine ⟨rk_i8 n, ?_⟩
  rw [rk_i8]
  constructor
  · intro h
    injection h with h
    have h : signed30 (n % 2 ^ 30).toNat = n := by exact_mod_cast h
    unfold signed30 at h
    split at h <;> omega
  · intro h
    rw [signed30_of_mod (n := n) (by omega) (by omega) (by omega)]

example : rkToF8 (i8ToRk (-7)) = .fin (-7) ∧ rkToF8 (i8ToRk (2 ^ 29)) = .fin (-2 ^ 29) := by
  decide +kernel

/-! ## C16 -/

/-- C16 does not hold: `-5` and `-0.05` are RK numbers, but come back as `-4` and `-0.04`; `2^29` (a
double that is exactly representable as an RK float) changes its sign. -/
theorem C16_not_roundtrip :
    (∃ w : BitVec 32, rkToF8 w = .fin (-5)) ∧ rkToF8 (f8ToRk (.fin (-5))) = .fin (-4) ∧
    (∃ w : BitVec 32, rkToF8 w = rnd (-5 / 100)) ∧
    rkToF8 (f8ToRk (rnd (-5 / 100))) = rnd (-4 / 100) ∧
    (∃ w : BitVec 32, rkToF8 w = .fin (2 ^ 29)) ∧ rkToF8 (f8ToRk (.fin (2 ^ 29))) = .fin (-2 ^ 29) := by
  refine ⟨⟨BitVec.ofInt 32 (-5 * 4 + 2), by decide +kernel⟩, by decide +kernel,
    ⟨BitVec.ofInt 32 (-5 * 4 + 3), by decide +kernel⟩, by decide +kernel,
    ⟨0x41C00000#32, by decide +kernel⟩, by decide +kernel⟩

/-- C16, the part that holds: non-negative integers below 2^29, non-negative hundredths below
2^29/100, and doubles with 34 zero low bits that are not two-decimal numbers survive.  Missing:
negative integers and hundredths and integers from 2^29 on, for which it is false. -/
theorem C16_double_rk_roundtrip_partial :
    (∀ n : ℤ, 0 ≤ n → n < 2 ^ 29 → rkToF8 (f8ToRk (.fin n)) = .fin n) ∧
    (∀ k : ℤ, 0 ≤ k → k < 2 ^ 29 →
      rkToF8 (f8ToRk (rnd ((k : ℚ) / 100))) = rnd ((k : ℚ) / 100)) ∧
    (∀ num : Nat, num < 2 ^ 30 → num ≠ 2 ^ 29 →
      npRound (F64.ofBits (num * 2 ^ 34)) 2 ≠ F64.ofBits (num * 2 ^ 34) →
      rkToF8 (f8ToRk (F64.ofBits (num * 2 ^ 34))) = F64.ofBits (num * 2 ^ 34)) :=
  ⟨fun _ h0 h1 => rk_f8_int h0 h1, fun _ h0 h1 => rk_f8_cent h0 h1,
    fun _ h hz h2 => rk_f8_bits h hz h2⟩

-- 0.125 is a double with three decimals: num = 0x3FC00000 / 4.
example : F64.ofBits (0x0FF00000 * 2 ^ 34) = .fin (1 / 8) ∧
    npRound (F64.ofBits (0x0FF00000 * 2 ^ 34)) 2 ≠ F64.ofBits (0x0FF00000 * 2 ^ 34) := by
  decide +kernel

/-- Finding, C16 in general: every negative integer and every negative number of hundredths comes back one unit
nearer to zero. -/
theorem C16_negative :
    (∀ n : ℤ, n < 0 → -2 ^ 29 ≤ n → rkToF8 (f8ToRk (.fin n)) = .fin ((n + 1 : ℤ) : ℚ)) ∧
    (∀ k : ℤ, k < 0 → -2 ^ 29 ≤ k → k % 100 ≠ 0 →
      rkToF8 (f8ToRk (rnd ((k : ℚ) / 100))) = rnd (((k + 1 : ℤ) : ℚ) / 100)) :=
  ⟨fun _ h0 h1 => rk_f8_int_neg h0 h1, fun _ h0 h1 hd => rk_f8_cent_neg h0 h1 hd⟩

/-- C16, exactly when it holds, for integers up to 2^46 and for hundredths in the range of RK numbers. -/
theorem C16_exact :
    (∀ n : ℤ, |n| ≤ 2 ^ 46 → (rkToF8 (f8ToRk (.fin n)) = .fin n ↔ 0 ≤ n ∧ n < 2 ^ 29)) ∧
    (∀ k : ℤ, -2 ^ 29 ≤ k → k < 2 ^ 29 →
      (rkToF8 (f8ToRk (rnd ((k : ℚ) / 100))) = rnd ((k : ℚ) / 100) ↔ 0 ≤ k)) := by
  have hint : ∀ n : ℤ, |n| ≤ 2 ^ 46 → (rkToF8 (f8ToRk (.fin n)) = .fin n ↔ 0 ≤ n ∧ n < 2 ^ 29) := by
    intro n hn
    constructor
    · intro h
      have h2 : -2 ^ 29 ≤ n ∧ n < 2 ^ 29 := by
        have e : ∃ z : ℤ, f8ToRk (.fin n) = i8ToRk z := by
          unfold f8ToRk
          rw [npRound_int hn, beq_self, if_pos rfl]
          simp only [F64.trunc, truncQ_int]
          rw [beq_self, if_pos rfl]
          exact ⟨_, rfl⟩
        obtain ⟨z, e⟩ := e
        rw [e, rk_i8] at h
        injection h with h
        have h : signed30 (z % 2 ^ 30).toNat = n := by exact_mod_cast h
        unfold signed30 at h
        split at h <;> omega
      refine ⟨?_, h2.2⟩
      by_contra hneg
      rw [rk_f8_int_neg (by omega) h2.1] at h
      injection h with h
      have h : n + 1 = n := by exact_mod_cast h
      omega
    · rintro ⟨h0, h1⟩
      exact rk_f8_int h0 h1
  refine ⟨hint, fun k h0 h1 => ⟨fun h => ?_, fun h => rk_f8_cent h h1⟩⟩
  by_contra hneg
  by_cases hd : k % 100 = 0
  · obtain ⟨n, rfl⟩ : ∃ n, k = n * 100 := ⟨k / 100, by omega⟩
    have hn : |n| ≤ 2 ^ 46 := by rw [abs_of_neg (by omega)]; omega
    rw [show (((n * 100 : ℤ) : ℚ) / 100) = ((n : ℤ) : ℚ) by push_cast; ring,
      rnd_int (hn.trans (by norm_num))] at h
    have := (hint n hn).1 h
    omega
  · rw [rk_f8_cent_neg (by omega) h0 hd] at h
    have a1 : |k| ≤ 2 ^ 29 := by rw [abs_of_neg (by omega)]; omega
    have a2 : |k + 1| ≤ 2 ^ 29 := by rw [abs_of_nonpos (by omega)]; omega
    have e1 := abs_le.1 (cent_err' a1)
    have e2 := abs_le.1 (cent_err' a2)
    rw [rnd_small (cent_lt a1) (by norm_num), rnd_small (cent_lt a2) (by norm_num)] at h
    injection h with h
    rw [h] at e2
    push_cast at e2
    linarith [e1.1, e1.2, e2.1, e2.2]

example : rkToF8 (f8ToRk (rnd (-1234 / 100))) = rnd (-1233 / 100) ∧ rkToF8 (f8ToRk (.fin (2 ^ 30 + 3))) = .fin 3 := by
  decide +kernel

/-! ## C17 -/

/-- C17: every whole serial but 60 becomes exactly midnight of the day that Excel shows.  `k` is the
number of days from 1970-01-01. -/
theorem C17_whole_serials {n : Nat} (h0 : n ≤ 10 ^ 7) {d : Date} (hd : excelDate n = some d) :
    ∃ k : Int, DaysFromEpoch d k ∧ f8ToMsWin (.fin n) = k * 86400000 := by
  have hn : n ≠ 0 ∧ n ≠ 60 := by
    unfold excelDate at hd
    by_cases h : n = 0 ∨ n = 60
    · rw [if_pos h] at hd; simp at hd
    · omega
  have e := f8ToMsWin_int (n := n) (by rw [abs_of_nonneg (by omega)]; omega)
  rw [Int.cast_natCast] at e
  by_cases h : n < 60
  · refine ⟨(n : Int) - 25568, excelDate_early (by omega) h hd, ?_⟩
    rw [e, if_neg (by omega), if_pos (by omega)]
  · refine ⟨(n : Int) - 25569, excelDate_late (by omega) hd, ?_⟩
    rw [e, if_neg (by omega), if_neg (by omega)]

/-- C17: the calendar of the specification assigns one day count to a date, so the timestamp above is
the only one. -/
theorem C17_day_unique {d : Date} (h : d.Real) {j k : Int} (hj : DaysFromEpoch d j)
    (hk : DaysFromEpoch d k) : j = k := daysFromEpoch_unique h hj hk

/-- C17: the fictitious day 60 coincides with 59, 28 February 1900. -/
theorem C17_day60 : f8ToMsWin (.fin 60) = f8ToMsWin (.fin 59) ∧
    DaysFromEpoch ⟨1900, 2, 28⟩ (-25509) ∧ f8ToMsWin (.fin 60) = -25509 * 86400000 := by
  have h60 := f8ToMsWin_int (n := 60) (by norm_num)
  have h59 := f8ToMsWin_int (n := 59) (by norm_num)
  norm_num at h60 h59
  refine ⟨by rw [h60, h59], ?_, by rw [h60]; norm_num⟩
  have := excelDate_early (n := 59) (by norm_num) (by norm_num) (d := ⟨1900, 2, 28⟩) (by decide +kernel)
  simpa using this

-- 2024-02-29 is serial 45351.
example : excelDate 61 = some ⟨1900, 3, 1⟩ ∧ excelDate 59 = some ⟨1900, 2, 28⟩ ∧
    f8ToMsWin (.fin 45351) = 1709164800000 := by decide +kernel

/-! ## C18 -/

/-- C18: the timestamp is within one millisecond plus 0.02 ms of rounding of the exact value. -/
theorem C18_serial_error {q : ℚ} (hq : IsFloat q) (h0 : 0 ≤ q) (h1 : q < 2958466) :
    |(f8ToMsWin (.fin q) : ℚ) - (q - serialOffset q) * 86400000| < 1 + 1 / 50 :=
  f8ms_err hq h0 h1

/-- C18: a serial below 1 stays within 1970-01-01. -/
theorem C18_fraction_of_day {q : ℚ} (hq : IsFloat q) (h0 : 0 ≤ q) (h1 : q < 1) :
    0 ≤ f8ToMsWin (.fin q) ∧ f8ToMsWin (.fin q) < 86400000 := f8ms_fraction hq h0 h1

example : IsFloat (45292 + 1 / 4) ∧ f8ToMsWin (.fin (45292 + 1 / 4)) = 1704088800000 :=
  ⟨⟨181169, -2, by norm_num, by norm_num, by norm_num⟩, by decide +kernel⟩

/-! ## C19 -/

/-- C19 does not hold: 2024-01-01 00:02:00.000, written as the nearest double, is read one millisecond
early. -/
theorem C19_millisecond_lost :
    f8ToMsWin (rnd ((1704067320000 : ℚ) / 86400000 + 25569)) = 1704067320000 - 1 := by decide +kernel

/-- C19, what holds: the millisecond is read back exactly or one millisecond towards 1970.  Missing:
exactness, which fails (`C19_millisecond_lost`). -/
theorem C19_roundtrip_partial {T : ℤ} (h0 : -2203891200000 ≤ T) (h1 : T < 253402300800000) :
    (0 < T → f8ToMsWin (rnd ((T : ℚ) / 86400000 + 25569)) = T ∨
      f8ToMsWin (rnd ((T : ℚ) / 86400000 + 25569)) = T - 1) ∧
    (T < 0 → f8ToMsWin (rnd ((T : ℚ) / 86400000 + 25569)) = T ∨
      f8ToMsWin (rnd ((T : ℚ) / 86400000 + 25569)) = T + 1) ∧
    (T = 0 → f8ToMsWin (rnd ((T : ℚ) / 86400000 + 25569)) = 0) := by
  obtain ⟨s, hs, -, -, -, he, hp⟩ := f8ms_roundtrip h0 h1
  rw [hs, hp]
  exact truncQ_close he

/-- C19, exact case: every multiple of 1/1024 of a day (84.375 s), in particular whole days, half days
and quarter days, is read back exactly. -/
theorem C19_roundtrip_exact_partial {k : ℤ} (h0 : -26121000 ≤ k) (h1 : k < 3003286528) :
    f8ToMsWin (rnd (((k * 84375 : ℤ) : ℚ) / 86400000 + 25569)) = k * 84375 :=
  f8ms_roundtrip_1024 h0 h1

example : f8ToMsWin (rnd ((1704067380000 : ℚ) / 86400000 + 25569)) = 1704067380000 := by decide +kernel

/-! ## C20 -/

/-- C20: inside each segment a later serial never gives an earlier timestamp. -/
theorem C20_monotone {x y : ℚ} (hx : IsFloat x) (hy : IsFloat y) (h0 : 0 ≤ x) (h1 : y < 2958466)
    (hxy : x ≤ y) (seg : y < 1 ∨ (1 ≤ x ∧ y < 60) ∨ 60 ≤ x) :
    f8ToMsWin (.fin x) ≤ f8ToMsWin (.fin y) := by
  apply f8ms_mono hx hy h0 h1 hxy
  unfold serialOffset
  rcases seg with h | ⟨h, h'⟩ | h
  · rw [if_pos h, if_pos (by linarith)]
  · rw [if_neg (by linarith), if_pos (by linarith), if_neg (by linarith), if_pos (by linarith)]
  · rw [if_neg (by linarith), if_neg (by linarith), if_neg (by linarith), if_neg (by linarith)]

/-- C20: the drops at the two boundaries.  From noon (0.5) to serial 1 time goes back by 25567.5 days,
from 59.5 to 60 by half a day. -/
theorem C20_drops : f8ToMsWin (.fin (1 / 2)) = 43200000 ∧ f8ToMsWin (.fin 1) = -25567 * 86400000 ∧
    f8ToMsWin (.fin (119 / 2)) = -25508 * 86400000 - 43200000 ∧
    f8ToMsWin (.fin 60) = -25509 * 86400000 := by decide +kernel

example : IsFloat (3 / 2) ∧ IsFloat 2 ∧ f8ToMsWin (.fin (3 / 2)) < f8ToMsWin (.fin 2) :=
  ⟨⟨3, -1, by norm_num, by norm_num, by norm_num⟩, ⟨2, 0, by norm_num, by norm_num, by norm_num⟩,
    by decide +kernel⟩

/-! ## C21 -/

/-- C21: on whole days `ms_to_f8_win` inverts `f8_to_ms_win` exactly for serials up to 0 and from 25570
on; the serials 1 to 25569 come back as negative numbers or zero. -/
theorem C21_whole_days {n : ℤ} (h : |n| ≤ 10 ^ 7) :
    (msToF8Win (f8ToMsWin (.fin n)) = .fin n ↔ n ≤ 0 ∨ 25570 ≤ n) ∧
    (1 ≤ n → n < 25570 → ∃ m : ℤ, m ≤ 0 ∧ msToF8Win (f8ToMsWin (.fin n)) = .fin m) := by
  have h' := abs_le.1 h
  rw [f8ToMsWin_int h, msToF8_days (by rw [abs_le]; constructor <;> split_ifs <;> omega)]
  constructor
  · constructor
    · intro e
      injection e with e
      rw [Int.cast_inj] at e
      split_ifs at e <;> omega
    · intro e
      congr 1
      norm_cast
      split_ifs <;> omega
  · intro h1 h2
    refine ⟨n - (if n < 60 then 25568 else 25569), by split_ifs <;> omega, ?_⟩
    congr 1
    norm_cast
    split_ifs <;> omega

example : msToF8Win (f8ToMsWin (.fin 45292)) = .fin 45292 ∧
    msToF8Win (f8ToMsWin (.fin 25569)) = .fin 0 := by decide +kernel

/-! ## C22 -/

/-- C22: if an array of finite doubles in the int64 range is classified as integers, then each element
is converted to its truncation, which is within half a unit of the last kept digit of it (plus the
float error of `np.round`, relative 2^-50). -/
theorem C22_int_detection {arr : List F64} {p : Nat} (hp : p ≤ 15) (h : f8IsI8 arr p = true) {q : ℚ}
    (hq : F64.fin q ∈ arr) (hr : |q| < 2 ^ 63) :
    F64.toI64 (.fin q) = F64.truncQ q ∧
    |(F64.toI64 (.fin q) : ℚ) - q| ≤ (1 / 2 + 1 / 2 ^ 40) / 10 ^ p + |q| / 2 ^ 50 := by
  have ht := toI64_trunc hr
  refine ⟨ht, ?_⟩
  rw [ht]
  apply isI8_elem hp hr
  unfold f8IsI8 at h
  simp only [Bool.not_eq_true', List.any_eq_false, Bool.not_eq_true] at h
  have := h _ hq
  simpa using this

/-- C22: whole numbers that keep the rounding exact (`|n|·10^p ≤ 2^53`) are accepted, so such a column
is delivered as int64. -/
theorem C22_int_accepted (p : Nat) (ns : List ℤ) (h : ∀ n ∈ ns, |n| * 10 ^ p ≤ 2 ^ 53) :
    f8IsI8 (ns.map fun n : ℤ => F64.fin (n : ℚ)) p = true := by
  unfold f8IsI8
  rw [Bool.not_eq_true', List.any_eq_false]
  intro x hx
  obtain ⟨n, hn, rfl⟩ := List.mem_map.1 hx
  rw [npRound_whole (h n hn)]
  simp [F64.trunc, truncQ_int, F64.beq]

/-- C22: a NaN in the column keeps it a float column. -/
theorem C22_nan_rejected (arr : List F64) (p : Nat) (h : F64.nan ∈ arr) : f8IsI8 arr p = false := by
  unfold f8IsI8
  simp only [Bool.not_eq_false', List.any_eq_true]
  exact ⟨_, h, by simp [F64.trunc, F64.beq]⟩

/-- C22, outside the int64 range the claim is lost: `2^70` and infinity are classified as integers and
become the indefinite integer. -/
theorem C22_out_of_range : f8IsI8 [.fin (2 ^ 70), .inf false] 6 = true ∧
    F64.toI64 (.fin (2 ^ 70)) = -2 ^ 63 ∧ F64.toI64 (.inf false) = -2 ^ 63 := by decide +kernel

example : f8IsI8 [.fin 3, rnd (70000001 / 10000000)] 6 = true ∧
    f8IsI8 [.fin 3, rnd (70001 / 10000)] 6 = false := by decide +kernel

/-- C22, a rounding direction trap: `6.9999999` rounds to 7 but truncates to 6, so a column holding it
stays a float column. -/
theorem C22_below_integer_rejected : f8IsI8 [rnd (69999999 / 10000000)] 6 = false := by decide +kernel

/-! ## C23 -/

/-- C23 does not hold as stated: 0 means "not parsed", so a string recognised as 1970-01-01 00:00 (or
any earlier midnight) makes the whole column fail, or takes the value of a later format. -/
theorem C23_zero_is_lost : ∃ (sp : Str → Option Str → Option Int) (arr : List (Option Str))
    (fmts : List Str), arr.mapM (firstRecognised sp fmts) = some [0] ∧
      mfStrptime sp [] arr fmts true = .error .arrowInvalid := by
  refine ⟨fun _ _ => some 0, [some ['x']], [['f']], rfl, rfl⟩

theorem C23_later_format_wins : ∃ (sp : Str → Option Str → Option Int) (arr : List (Option Str))
    (fmts : List Str), arr.mapM (firstRecognised sp fmts) = some [0] ∧
      mfStrptime sp [] arr fmts true = .ok [7] := by
  refine ⟨fun f _ => if f = ['f'] then some 0 else some 7, [some ['x']], [['f'], ['g']], ?_, ?_⟩
  · decide
  · decide

/-- C23, what holds for any strptime, strings and formats: when no recognised value is a midnight up to
1970-01-01, each string gets the value of the first format that recognises it (reduced to the time of
day if before 1970), and `ArrowInvalid` is raised exactly when some string is not recognised.  Missing:
strings recognised as such a midnight. -/
theorem C23_multi_format_partial (sp : Str → Option Str → Option Int) (defaults : List Str)
    (arr : List (Option Str)) (fmts : List Str) (hf : fmts ≠ [])
    (h : ∀ f ∈ fmts, ∀ s ∈ arr, ∀ v, sp f s = some v → timeOfDay v ≠ 0) :
    mfStrptime sp defaults arr fmts true =
      match arr.mapM (firstRecognised sp fmts) with
      | some vs => .ok (vs.map timeOfDay)
      | none => .error .arrowInvalid := by
  rw [mfStrptime_eq sp defaults arr fmts true hf, Bool.true_and]
  exact mapM_firstRecognised sp fmts arr h

/-- C23, exactly: each string gets the value of the first format that gives it a value other than 0 (values before 1970
reduced to the time of day), and `ArrowInvalid` is raised exactly when for some string no format does. -/
theorem C23_exact (sp : Str → Option Str → Option Int) (defaults : List Str) (arr : List (Option Str)) (fmts : List Str)
    (hf : fmts ≠ []) :
    mfStrptime sp defaults arr fmts true =
      match arr.mapM fun s => fmts.findSome? fun f =>
        (sp f s).bind fun v => if timeOfDay v = 0 then none else some (timeOfDay v) with
      | some vs => .ok vs
      | none => .error .arrowInvalid := by
  rw [mfStrptime_eq sp defaults arr fmts true hf, Bool.true_and]
  have hu := mfElem_usable sp fmts
  have hne : ∀ s v, (fmts.findSome? fun f =>
      (sp f s).bind fun v => if timeOfDay v = 0 then none else some (timeOfDay v)) = some v → v ≠ 0 := by
    intro s v h
    obtain ⟨f, _, h⟩ := List.exists_of_findSome?_eq_some h
    obtain ⟨w, _, h⟩ := Option.bind_eq_some_iff.1 h
    split at h
    · simp at h
    · rename_i hw
      injection h with h
      rwa [← h]
  let g : Option Str → Option Int := fun s => fmts.findSome? fun f =>
    (sp f s).bind fun v => if timeOfDay v = 0 then none else some (timeOfDay v)
  have hu : mfElem sp fmts = fun s => (g s).getD 0 := funext hu
  have hne : ∀ s v, g s = some v → v ≠ 0 := hne
  change _ = match arr.mapM g with
    | some vs => (.ok vs : Py (List Int))
    | none => .error .arrowInvalid
  clear_value g
  rw [hu]
  clear hu hf
  induction arr with
  | nil => simp
  | cons s ss ih =>
    rw [List.mapM_cons]
    cases hs : g s with
    | none => simp [hs]
    | some v =>
      have hv := hne s v hs
      revert ih
      cases List.mapM g ss with
      | none => intro ih; simp_all
      | some vs =>
        intro ih
        by_cases ha : ((ss.map fun s => (g s).getD 0).any fun r => decide (r = 0)) = true
        · rw [if_pos ha] at ih; simp at ih
        · rw [if_neg ha] at ih
          injection ih with ih
          rw [if_neg]
          · simp [hs, ih]
          · simp only [List.map_cons, hs, Option.getD_some, List.any_cons, hv, decide_false, Bool.false_or]
            exact ha

/-- C23: the early exit does not couple the strings: whatever strptime does, each result depends only
on its own string. -/
theorem C23_elementwise (sp : Str → Option Str → Option Int) (defaults : List Str) (fmts : List Str) :
    ∃ g : Option Str → Int, ∀ arr : List (Option Str),
      mfStrptime sp defaults arr fmts false = .ok (arr.map g) := by
  by_cases hf : fmts = []
  · by_cases hd : defaults = []
    · refine ⟨fun _ => 0, fun arr => ?_⟩
      subst hf; subst hd
      simp [mfStrptime, mfLoop]
    · refine ⟨mfElem sp defaults, fun arr => ?_⟩
      have := mfStrptime_eq sp [] arr defaults false hd
      rw [Bool.false_and, if_neg (by simp)] at this
      rw [← this, hf]
      have hde : defaults.isEmpty = false := by cases defaults <;> simp_all
      unfold mfStrptime
      simp [hde]
  · refine ⟨mfElem sp fmts, fun arr => ?_⟩
    rw [mfStrptime_eq sp defaults arr fmts false hf, Bool.false_and, if_neg (by simp)]

example : mfStrptime (fun f s => if f = ['f'] then (if s = some ['a'] then some 5 else none)
      else if s = none then none else some (-1)) [] [some ['a'], some ['b']] [['f'], ['g']] true
    = .ok [5, 86399999] := by decide

/-! ## C24 -/

/-- C24 does not hold above one byte: bit 0 of a 9-bit mask is read from the second byte. -/
theorem C24_two_bytes_wrong : arrowBit [1, 0] 0 = true ∧
    (unsafeBoolArrowToNumpy [1, 0] 9)[0]? = some false := by decide

/-- C24, what the function computes for every mask: the bits with the bytes of the buffer in reverse
order. -/
theorem C24_reversed_bytes (buf : Bytes) (n i : Nat) (hn : n ≤ 8 * buf.length) (hi : i < n) :
    (unsafeBoolArrowToNumpy buf n)[i]? = some (arrowBit buf.reverse i) :=
  unsafeBool_getElem buf n i hn hi

/-- C24, the exact condition for masks that fill their bytes: the function is right exactly when the bytes read the
same from both ends. -/
theorem C24_exact (buf : Bytes) :
    (∀ i < 8 * buf.length, (unsafeBoolArrowToNumpy buf (8 * buf.length))[i]? = some (arrowBit buf i)) ↔
      buf.reverse = buf := by
  constructor
  · intro h
    apply List.ext_getElem (by simp)
    intro k h1 h2
    have hk : k < buf.length := h2
    apply UInt8.toNat_inj.mp
    apply Nat.eq_of_testBit_eq
    intro j
    by_cases hj : j < 8
    · have := h (8 * k + j) (by omega)
      rw [C24_reversed_bytes buf _ _ (le_refl _) (by omega)] at this
      injection this with this
      unfold arrowBit at this
      rw [show (8 * k + j) / 8 = k by omega, show (8 * k + j) % 8 = j by omega, List.getD_eq_getElem _ _ h1,
        List.getD_eq_getElem _ _ h2] at this
      exact this
    · rw [Nat.testBit_lt_two_pow, Nat.testBit_lt_two_pow]
      · exact lt_of_lt_of_le (UInt8.toNat_lt _) (Nat.pow_le_pow_right (by norm_num) (by omega))
      · exact lt_of_lt_of_le (UInt8.toNat_lt _) (Nat.pow_le_pow_right (by norm_num) (by omega))
  · intro h i hi
    rw [C24_reversed_bytes buf _ _ (le_refl _) hi, h]

example : [7, 1, 7].reverse = ([7, 1, 7] : Bytes) ∧ (unsafeBoolArrowToNumpy [7, 1, 7] 24)[9]? = some (arrowBit [7, 1, 7] 9) ∧
    (unsafeBoolArrowToNumpy [7, 1] 16)[1]? ≠ some (arrowBit [7, 1] 1) := by decide +kernel

/-- C24, the part that holds: a mask in a one-byte buffer.  Missing: longer masks (and buffers padded to
a larger size), where it is false. -/
theorem C24_one_byte_partial (b : UInt8) (n : Nat) (h0 : 1 ≤ n) (hn : n ≤ 8) :
    (unsafeBoolArrowToNumpy [b] n).length = n ∧
    ∀ i < n, (unsafeBoolArrowToNumpy [b] n)[i]? = some (arrowBit [b] i) :=
  ⟨unsafeBool_length [b] n (by omega) (by simpa using hn), fun i hi =>
    unsafeBool_getElem [b] n i (by simpa using hn) hi⟩

example : unsafeBoolArrowToNumpy [5] 3 = [true, false, true] := by decide

end Rxls
