import Verif.Spec.Calendar
import Verif.Lemmas.RkEncode

/-! # Lemmas for the date conversions -/

namespace Rxls

theorem bge_one (q : ℚ) : F64.bge (.fin q) (.fin 1) = decide (1 ≤ q) := by
  simp only [F64.bge, F64.blt, F64.beq]
  rcases lt_trichotomy q 1 with h | h | h
  · simp [h.not_ge, h.not_gt, h.ne]
  · simp [h]
  · simp [h, h.le]

theorem f8ToMsWin_eq (q : ℚ) : f8ToMsWin (.fin q) =
    F64.toI64 (F64.mul (rnd (q - serialOffset q)) (.fin 86400000)) := by
  have e : F64.mul (F64.ofBool (F64.bge (.fin q) (.fin 1)))
      (F64.sub (.fin 25569) (F64.ofBool (F64.blt (.fin q) (.fin 60)))) = .fin (serialOffset q) := by
    rw [bge_one]
    simp only [F64.blt, F64.ofBool, F64.sub, F64.neg, F64.add, serialOffset]
    have h1 : rnd (25569 + -1) = .fin 25568 := by
      have := rnd_int (n := 25568) (by norm_num); norm_num at this ⊢; exact this
    have h2 : rnd (25569 + -0) = .fin 25569 := by
      have := rnd_int (n := 25569) (by norm_num); norm_num at this ⊢; exact this
    have h0 : rnd 0 = .fin 0 := by
      have := rnd_int (n := 0) (by norm_num); norm_num at this ⊢; exact this
    have h1' : rnd 25568 = .fin 25568 := by
      have := rnd_int (n := 25568) (by norm_num); norm_num at this ⊢; exact this
    have h2' : rnd 25569 = .fin 25569 := by
      have := rnd_int (n := 25569) (by norm_num); norm_num at this ⊢; exact this
    by_cases ha : q < 1
    · have hb : q < 60 := by linarith
      simp [ha, hb, ha.not_ge, F64.mul, h1, h0]
    · by_cases hb : q < 60
      · simp [ha, hb, not_lt.1 ha, F64.mul, h1, h1']
      · simp [ha, hb, not_lt.1 ha, F64.mul, h2']
  unfold f8ToMsWin
  rw [e]
  simp only [F64.sub, F64.neg, F64.add]
  rw [← sub_eq_add_neg]

theorem serialOffset_int (n : ℤ) : serialOffset n =
    ((if n < 1 then 0 else if n < 60 then 25568 else 25569 : ℤ) : ℚ) := by
  unfold serialOffset
  have h1 : ((n : ℚ) < 1) ↔ n < 1 := by exact_mod_cast Iff.rfl
  have h2 : ((n : ℚ) < 60) ↔ n < 60 := by exact_mod_cast Iff.rfl
  simp only [h1, h2]
  split
  · simp
  · split <;> norm_num

theorem toI64_int {n : ℤ} (h : |n| < 2 ^ 63) : F64.toI64 (.fin n) = n := by
  simp only [F64.toI64, truncQ_int]
  have := abs_lt.1 h
  rw [if_pos ⟨by omega, by omega⟩]

theorem f8ToMsWin_int {n : ℤ} (h : |n| ≤ 10 ^ 7) : f8ToMsWin (.fin n) =
    (n - if n < 1 then 0 else if n < 60 then 25568 else 25569) * 86400000 := by
  rw [f8ToMsWin_eq, serialOffset_int]
  set o : ℤ := if n < 1 then 0 else if n < 60 then 25568 else 25569
  have ho : |n - o| ≤ 11000000 := by
    have h1 := abs_le.1 h
    rw [abs_le]
    constructor <;> simp only [o] <;> split_ifs <;> omega
  rw [show ((n : ℚ) - (o : ℚ)) = ((n - o : ℤ) : ℚ) by push_cast; ring,
    rnd_int (ho.trans (by norm_num))]
  simp only [F64.mul]
  have h2 : |(n - o) * 86400000| ≤ 2 ^ 53 := by
    rw [abs_mul]; norm_num at ho ⊢; omega
  rw [show (((n - o : ℤ) : ℚ) * 86400000) = (((n - o) * 86400000 : ℤ) : ℚ) by push_cast; ring,
    rnd_int h2, toI64_int (lt_of_le_of_lt h2 (by norm_num))]

/-! ## Calendar -/

theorem iter_in_month (y m : Nat) {j : Nat} (h : j < daysInMonth y m) :
    nextDay^[j] ⟨y, m, 1⟩ = ⟨y, m, j + 1⟩ := by
  induction j with
  | zero => rfl
  | succ j ih =>
    rw [Function.iterate_succ_apply', ih (by omega)]
    unfold nextDay
    simp only
    rw [if_pos h]

theorem daysInMonth_le (y m : Nat) : daysInMonth y m ≤ 31 ∧ 28 ≤ daysInMonth y m := by
  unfold daysInMonth; split
  · split <;> omega
  · split <;> omega

theorem iter_month (y m : Nat) : nextDay^[daysInMonth y m] ⟨y, m, 1⟩ =
    if m < 12 then ⟨y, m + 1, 1⟩ else ⟨y + 1, 1, 1⟩ := by
  have h := daysInMonth_le y m
  obtain ⟨k, hk⟩ : ∃ k, daysInMonth y m = k + 1 := ⟨daysInMonth y m - 1, by omega⟩
  rw [hk, Function.iterate_succ_apply', iter_in_month y m (by omega)]
  unfold nextDay
  simp only
  rw [if_neg (by omega)]

def yearLen (y : Nat) : Nat := if leapYear y then 366 else 365

theorem iter_year (y : Nat) : nextDay^[yearLen y] ⟨y, 1, 1⟩ = ⟨y + 1, 1, 1⟩ := by
  have e : yearLen y = daysInMonth y 12 + (daysInMonth y 11 + (daysInMonth y 10 + (daysInMonth y 9 +
      (daysInMonth y 8 + (daysInMonth y 7 + (daysInMonth y 6 + (daysInMonth y 5 + (daysInMonth y 4 +
      (daysInMonth y 3 + (daysInMonth y 2 + daysInMonth y 1)))))))))) := by
    unfold yearLen
    simp only [daysInMonth]
    cases leapYear y <;> simp
  have st : ∀ k k' : Nat, k < 12 → k' = k + 1 → nextDay^[daysInMonth y k] ⟨y, k, 1⟩ = ⟨y, k', 1⟩ := by
    intro k k' h1 h2
    rw [iter_month, if_pos h1, h2]
  have last : nextDay^[daysInMonth y 12] ⟨y, 12, 1⟩ = ⟨y + 1, 1, 1⟩ := by
    rw [iter_month, if_neg (by norm_num)]
  rw [e]
  simp only [Function.iterate_add_apply]
  rw [st 1 2 (by norm_num) rfl, st 2 3 (by norm_num) rfl, st 3 4 (by norm_num) rfl,
    st 4 5 (by norm_num) rfl, st 5 6 (by norm_num) rfl, st 6 7 (by norm_num) rfl,
    st 7 8 (by norm_num) rfl, st 8 9 (by norm_num) rfl, st 9 10 (by norm_num) rfl,
    st 10 11 (by norm_num) rfl, st 11 12 (by norm_num) rfl, last]

theorem iter_years (y n : Nat) :
    nextDay^[((List.range n).map fun i => yearLen (y + i)).sum] ⟨y, 1, 1⟩ = ⟨y + n, 1, 1⟩ := by
  induction n with
  | zero => rfl
  | succ n ih =>
    rw [List.range_succ, List.map_append, List.sum_append, Nat.add_comm, Function.iterate_add_apply, ih]
    simp [iter_year, Nat.add_assoc]

theorem steps_1900_01_01 : nextDay^[25567] ⟨1900, 1, 1⟩ = epoch1970 := by
  have h := iter_years 1900 70
  rwa [show ((List.range 70).map fun i => yearLen (1900 + i)).sum = 25567 by decide +kernel] at h

theorem steps_1900_03_01 : nextDay^[25508] ⟨1900, 3, 1⟩ = epoch1970 := by
  have h := steps_1900_01_01
  rw [show (25567 : Nat) = 25508 + (28 + 31) from rfl, Function.iterate_add_apply,
    Function.iterate_add_apply] at h
  have h1 := iter_month 1900 1
  have h2 := iter_month 1900 2
  rw [show daysInMonth 1900 1 = 31 by decide, if_pos (by norm_num)] at h1
  rw [show daysInMonth 1900 2 = 28 by decide, if_pos (by norm_num)] at h2
  rw [h1, h2] at h
  exact h

theorem excelDate_early {n : Nat} (h1 : 1 ≤ n) (h2 : n < 60) {d : Date} (hd : excelDate n = some d) :
    DaysFromEpoch d ((n : Int) - 25568) := by
  unfold excelDate at hd
  rw [if_neg (by omega), if_pos h2] at hd
  injection hd with hd
  subst hd
  unfold DaysFromEpoch
  rw [if_neg (by omega), ← Function.iterate_add_apply]
  rw [show (-((n : Int) - 25568)).toNat + (n - 1) = 25567 by omega]
  exact steps_1900_01_01

theorem excelDate_late {n : Nat} (h2 : 61 ≤ n) {d : Date} (hd : excelDate n = some d) :
    DaysFromEpoch d ((n : Int) - 25569) := by
  unfold excelDate at hd
  rw [if_neg (by omega), if_neg (by omega)] at hd
  injection hd with hd
  subst hd
  unfold DaysFromEpoch
  split
  · rw [← steps_1900_03_01, ← Function.iterate_add_apply]
    congr 1
    omega
  · rw [← Function.iterate_add_apply]
    rw [show (-((n : Int) - 25569)).toNat + (n - 61) = 25508 by omega]
    exact steps_1900_03_01

/-- Position of a date, increasing with time. -/
def dateKey (d : Date) : Nat := d.year * 512 + d.month * 32 + d.day

theorem nextDay_real {d : Date} (h : d.Real) : (nextDay d).Real ∧ dateKey d < dateKey (nextDay d) := by
  obtain ⟨y, m, dd⟩ := d
  obtain ⟨h1, h2, h3, h4⟩ := h
  have hm := daysInMonth_le y m
  simp only at h1 h2 h3 h4
  unfold nextDay
  simp only
  split
  · exact ⟨⟨h1, h2, by simp only; omega, by simp only; omega⟩, by simp [dateKey]⟩
  · split
    · refine ⟨⟨by simp only; omega, by simp only; omega, by simp only; omega, ?_⟩, by simp [dateKey]; omega⟩
      have := daysInMonth_le y (m + 1); simp only; omega
    · refine ⟨⟨by simp only; omega, by simp only; omega, by simp only; omega, ?_⟩, by simp [dateKey]; omega⟩
      have := daysInMonth_le (y + 1) 1; simp only; omega

theorem iterate_real {d : Date} (h : d.Real) (k : Nat) :
    (nextDay^[k] d).Real ∧ dateKey d + k ≤ dateKey (nextDay^[k] d) := by
  induction k with
  | zero => simp only [Function.iterate_zero, id_eq, Nat.add_zero, le_refl, and_true]; exact h
  | succ k ih =>
    rw [Function.iterate_succ_apply']
    have := nextDay_real ih.1
    exact ⟨this.1, by omega⟩

theorem iterate_inj {d : Date} (h : d.Real) {j k : Nat} (e : nextDay^[j] d = nextDay^[k] d) :
    j = k := by
  rcases lt_trichotomy j k with hlt | heq | hgt
  · exfalso
    obtain ⟨i, rfl⟩ : ∃ i, k = (i + 1) + j := ⟨k - j - 1, by omega⟩
    rw [Function.iterate_add_apply] at e
    have h1 := iterate_real h j
    have h2 := iterate_real h1.1 (i + 1)
    rw [← e] at h2
    omega
  · exact heq
  · exfalso
    obtain ⟨i, rfl⟩ : ∃ i, j = (i + 1) + k := ⟨j - k - 1, by omega⟩
    rw [Function.iterate_add_apply] at e
    have h1 := iterate_real h k
    have h2 := iterate_real h1.1 (i + 1)
    rw [e] at h2
    omega

theorem epoch_real : epoch1970.Real := by unfold Date.Real epoch1970; decide

theorem daysFromEpoch_unique {d : Date} (h : d.Real) {j k : Int} (hj : DaysFromEpoch d j)
    (hk : DaysFromEpoch d k) : j = k := by
  unfold DaysFromEpoch at hj hk
  split at hj <;> split at hk
  · have := iterate_inj epoch_real (hj.trans hk.symm); omega
  · exfalso
    have h1 := iterate_real epoch_real j.toNat
    have h2 := iterate_real h (-k).toNat
    rw [hk] at h2; rw [hj] at h1; omega
  · exfalso
    have h1 := iterate_real epoch_real k.toNat
    have h2 := iterate_real h (-j).toNat
    rw [hk] at h1; rw [hj] at h2; omega
  · have := iterate_inj h (hj.trans hk.symm); omega

end Rxls
