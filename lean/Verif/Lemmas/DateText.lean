import Mathlib.Tactic.NormNum
import Verif.Model.StrptimeLib
import Verif.Spec.DateText
import Verif.Lemmas.Dates
import Verif.Lemmas.Strptime

namespace Rxls

/-! ## Digits -/

theorem digitChar_mod (n : Nat) : digitChar n = digitChar (n % 10) := by simp [digitChar]

theorem digit_facts : ∀ k < 10, (digitChar k).isDigit = true ∧ decVal (digitChar k) = k ∧ cSpace (digitChar k) = false := by
  decide +kernel

theorem digitChar_isDigit (n : Nat) : (digitChar n).isDigit = true := by
  rw [digitChar_mod]; exact (digit_facts _ (Nat.mod_lt _ (by norm_num))).1

theorem digitChar_val (n : Nat) : decVal (digitChar n) = n % 10 := by
  rw [digitChar_mod]; exact (digit_facts _ (Nat.mod_lt _ (by norm_num))).2.1

theorem digitChar_space (n : Nat) : cSpace (digitChar n) = false := by
  rw [digitChar_mod]; exact (digit_facts _ (Nat.mod_lt _ (by norm_num))).2.2

theorem digitChar_ne (n : Nat) {c : Char} (h : c.isDigit = false) : digitChar n ≠ c := by
  intro e; rw [← e, digitChar_isDigit] at h; cases h

/-- Two digits are read as their number. -/
theorem getNumber_digits2 {lo hi n : Nat} (h1 : lo ≤ n) (h2 : n ≤ hi) (h3 : n < 100) (rest : Str) :
    getNumber lo hi 2 (digits2 n ++ rest) = some (n, rest) := by
  have a : n / 10 % 10 * 10 ≤ hi := by omega
  have b : n / 10 % 10 * 10 + n % 10 = n := by omega
  simp [getNumber, digits2, digitChar_space, digitChar_isDigit, digitChar_val, getDigits, a, b, h1, h2]

/-- Two digits before something else are read as a year. -/
theorem getNumber_year2 {n : Nat} (h3 : n < 100) (rest : Str) (h : ∀ c r, rest = c :: r → c.isDigit = false) :
    getNumber 0 9999 4 (digits2 n ++ rest) = some (n, rest) := by
  have a : n / 10 % 10 * 10 ≤ 9999 := by omega
  have b : n / 10 % 10 * 10 + n % 10 = n := by omega
  have c : getDigits 9999 2 n rest = (n, rest) := by
    cases rest with
    | nil => rfl
    | cons c r => simp [getDigits, h c r rfl]
  simp [getNumber, digits2, digitChar_space, digitChar_isDigit, digitChar_val, getDigits, a, b, c]
  omega

theorem getNumber_digits4 {n : Nat} (h3 : n < 10000) (rest : Str) :
    getNumber 0 9999 4 (digits4 n ++ rest) = some (n, rest) := by
  have a : n / 1000 % 10 * 10 ≤ 9999 := by omega
  have b : (n / 1000 % 10 * 10 + n / 100 % 10) * 10 ≤ 9999 := by omega
  have c : ((n / 1000 % 10 * 10 + n / 100 % 10) * 10 + n / 10 % 10) * 10 ≤ 9999 := by omega
  have d : ((n / 1000 % 10 * 10 + n / 100 % 10) * 10 + n / 10 % 10) * 10 + n % 10 = n := by omega
  simp [getNumber, digits4, digitChar_space, digitChar_isDigit, digitChar_val, getDigits, a, b, c, d]
  omega

/-! ## What is not read -/

/-- The first character that is not a digit. -/
def afterDigits (s : Str) : Option Char := (s.dropWhile Char.isDigit).head?

theorem getDigits_after (hi n v : Nat) (s : Str) :
    afterDigits (getDigits hi n v s).2 = afterDigits s := by
  induction n generalizing v s with
  | zero => rfl
  | succ n ih =>
    cases s with
    | nil => rfl
    | cons c s =>
      rw [getDigits]
      split
      · rename_i h
        rw [ih]
        simp [afterDigits, h.1]
      · rfl

theorem getNumber_after {lo hi n v : Nat} {s r : Str} (h : getNumber lo hi n s = some (v, r))
    (hs : ∀ c t, s = c :: t → cSpace c = false) : afterDigits r = afterDigits s := by
  cases s with
  | nil => simp [getNumber] at h
  | cons c s =>
    have hc := hs c s rfl
    simp only [getNumber, List.dropWhile_cons, hc, Bool.false_eq_true, if_false] at h
    split at h
    · rename_i hd
      split at h
      · injection h with h
        have e : r = (getDigits hi (n - 1) (decVal c) s).2 := by rw [h]
        rw [e, getDigits_after]
        simp [afterDigits, hd]
      · cases h
    · cases h

def Dir.isNum : Dir → Bool
  | .lit _ => false
  | .space => false
  | _ => true

theorem runNum_after {d : Dir} (hd : d.isNum = true) {s r : Str} {t t' : Tm} (h : d.run s t = some (r, t'))
    (hs : ∀ c t, s = c :: t → cSpace c = false) : afterDigits r = afterDigits s := by
  cases d <;> simp only [Dir.isNum, Bool.false_eq_true] at hd <;>
    simp only [Dir.run, Option.map_eq_some_iff, Prod.mk.injEq] at h <;>
    (obtain ⟨p, hp, rfl, -⟩ := h; exact getNumber_after hp hs)

/-- A number and then a character that is not next. -/
theorem run_num_lit_fail {d : Dir} (hd : d.isNum = true) {c : Char} (hc : c.isDigit = false) (ds : List Dir) {s : Str}
    (t : Tm) (hs : ∀ c t, s = c :: t → cSpace c = false) (hne : afterDigits s ≠ some c) :
    runDirs (d :: .lit c :: ds) s t = none := by
  rw [runDirs]
  cases h : d.run s t with
  | none => rfl
  | some p =>
    obtain ⟨r, t'⟩ := p
    have ha := runNum_after hd h hs
    simp only [runDirs]
    cases r with
    | nil => rfl
    | cons x r =>
      have : x ≠ c := by
        rintro rfl
        apply hne
        rw [← ha]
        simp [afterDigits, hc]
      simp [Dir.run, this]

theorem afterDigits_digit (n : Nat) (s : Str) : afterDigits (digitChar n :: s) = afterDigits s := by
  simp [afterDigits, digitChar_isDigit]

theorem afterDigits_other {c : Char} (h : c.isDigit = false) (s : Str) : afterDigits (c :: s) = some c := by
  simp [afterDigits, h]

theorem afterDigits_nil : afterDigits [] = none := rfl

/-! ## The calendar -/

theorem daysFromCivil_next {d : Date} (h : d.Real) :
    daysFromCivil (nextDay d).year (nextDay d).month (nextDay d).day = daysFromCivil d.year d.month d.day + 1 := by
  obtain ⟨y, m, k⟩ := d
  obtain ⟨h1, h2, h3, h4⟩ := h
  simp only at h1 h2 h3 h4
  unfold nextDay
  simp only
  split
  · simp only [daysFromCivil]; push_cast; omega
  · rename_i hk
    have hk : k = daysInMonth y m := by omega
    have hL : leapYear y = true ↔ (y % 4 = 0 ∧ y % 100 ≠ 0) ∨ y % 400 = 0 := by simp [leapYear]
    subst hk
    clear h3 h4
    split
    · by_cases hl : leapYear y = true
      · have := hL.1 hl
        interval_cases m <;> simp [daysFromCivil, daysInMonth, hl] <;> omega
      · have := mt hL.2 hl
        interval_cases m <;> simp [daysFromCivil, daysInMonth, hl] <;> omega
    · have : m = 12 := by omega
      subst this
      simp [daysFromCivil, daysInMonth]
      omega

theorem daysFromCivil_iter (k : Nat) (d : Date) (h : d.Real) :
    daysFromCivil (nextDay^[k] d).year (nextDay^[k] d).month (nextDay^[k] d).day =
      daysFromCivil d.year d.month d.day + k := by
  induction k with
  | zero => simp
  | succ k ih =>
    rw [Function.iterate_succ_apply', daysFromCivil_next (iterate_real h k).1, ih]
    push_cast; omega

/-- The library's day count is the number of days from 1970-01-01. -/
theorem daysFromCivil_eq {d : Date} (hd : d.Real) {k : Int} (h : DaysFromEpoch d k) :
    daysFromCivil d.year d.month d.day = k := by
  unfold DaysFromEpoch at h
  split at h
  · have := daysFromCivil_iter k.toNat epoch1970 (by simp [Date.Real, epoch1970, daysInMonth])
    rw [h] at this
    rw [this, show daysFromCivil epoch1970.year epoch1970.month epoch1970.day = 0 by decide]
    omega
  · have := daysFromCivil_iter (-k).toNat d hd
    rw [h, show daysFromCivil epoch1970.year epoch1970.month epoch1970.day = 0 by decide] at this
    omega

end Rxls
