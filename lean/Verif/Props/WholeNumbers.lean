import Verif.Props.Casts
import Verif.Props.TwoFormats
import Mathlib.Tactic.Push

/-! # Property C123: a column of whole numbers is delivered as integers -/

namespace Rxls

theorem npRound_steps (n : ℤ) (p : Nat) {y : ℤ} (h1 : rnd ((n : ℚ) * 10 ^ p) = .fin y) :
    npRound (.fin n) p = rnd ((y : ℚ) / 10 ^ p) := by
  have h0 : (10 : ℚ) ^ p ≠ 0 := by positivity
  simp only [npRound, F64.mul, h1, F64.rint, rneInt_int, F64.div, if_neg h0]

theorem whole_one (n : ℤ) (p : Nat) : f8IsI8 [.fin n] p = F64.beq (.fin n) (npRound (.fin n) p) := by
  simp [f8IsI8, F64.trunc, truncQ_int]

/-- A whole number times a power of two. -/
theorem rnd_scaled {m : ℤ} (k : Nat) (hk : k ≤ 60) (h : |m| ≤ 2 ^ 53) : rnd ((m : ℚ) * 2 ^ k) = .fin ((m : ℚ) * 2 ^ k) := by
  obtain ⟨a, e, ha, he, hq⟩ := isFloat_int h
  apply rnd_isF64
  refine ⟨⟨a, e + k, ha, by omega, ?_⟩, ?_⟩
  · rw [hq, two_zpow_add, zpow_natCast, mul_assoc]
  · rw [abs_mul, abs_of_pos (by positivity : (0 : ℚ) < 2 ^ k)]
    have h1 : |(m : ℚ)| ≤ 2 ^ 53 := by exact_mod_cast h
    have h2 : (2 : ℚ) ^ k ≤ 2 ^ 60 := pow_le_pow_right₀ (by norm_num) hk
    calc |(m : ℚ)| * 2 ^ k ≤ 2 ^ 53 * 2 ^ 60 := mul_le_mul h1 h2 (by positivity) (by positivity)
      _ = 2 ^ 113 := by rw [← pow_add]
      _ < 2 ^ 1024 := pow_lt_pow_right₀ (by norm_num) (by norm_num)

/-- If the number times the power of ten is a double, the number is left as it is. -/
theorem whole_accepted {n : ℤ} {p : Nat} (hn : |n| ≤ 2 ^ 53) (m : ℤ) (k : Nat) (hk : k ≤ 60) (hm : |m| ≤ 2 ^ 53)
    (h : n * 10 ^ p = m * 2 ^ k) : f8IsI8 [.fin n] p = true := by
  have h0 : (10 : ℚ) ^ p ≠ 0 := by positivity
  have hq : (n : ℚ) * 10 ^ p = (m : ℚ) * 2 ^ k := by exact_mod_cast h
  have h1 : rnd ((n : ℚ) * 10 ^ p) = .fin ((n * 10 ^ p : ℤ) : ℚ) := by
    rw [hq, rnd_scaled k hk hm, ← hq]
    push_cast
    rfl
  rw [whole_one, npRound_steps n p h1]
  push_cast
  rw [mul_div_cancel_right₀ _ h0, rnd_int hn]
  simp [F64.beq]

theorem ten_pow (n : ℤ) (p : Nat) : n * 10 ^ p = n * 5 ^ p * 2 ^ p := by
  rw [mul_assoc, ← mul_pow]
  norm_num

theorem le_times (n : ℤ) (p : Nat) : |n| ≤ |n| * 5 ^ p := le_mul_of_one_le_right (abs_nonneg n) (one_le_pow₀ (by norm_num))

/-- **C123**, where it holds: whole numbers that times `5 ^ float_precision` are at most `2 ^ 53` in magnitude count as
integers (576 460 752 303 for the default 6 digits). -/
theorem C123_accepted_partial (p : Nat) (hp : p ≤ 22) (ns : List ℤ) (h : ∀ n ∈ ns, |n| * 5 ^ p ≤ 2 ^ 53) :
    f8IsI8 (ns.map fun n : ℤ => F64.fin (n : ℚ)) p = true := by
  have one : ∀ n ∈ ns, f8IsI8 [.fin (n : ℚ)] p = true := fun n hn =>
    whole_accepted ((le_times n p).trans (h n hn)) (n * 5 ^ p) p (by omega)
      (by rw [abs_mul, abs_of_pos (by positivity : (0 : ℤ) < 5 ^ p)]; exact h n hn) (ten_pow n p)
  unfold f8IsI8 at one ⊢
  rw [Bool.not_eq_true', List.any_eq_false]
  intro x hx
  obtain ⟨n, hn, rfl⟩ := List.mem_map.1 hx
  have := one n hn
  simpa using this

theorem rndQ_odd {P : ℤ} {p : Nat} (hodd : ¬ 2 ∣ P) (h1 : 2 ^ 53 ≤ |P|) (h2 : |P| < 2 ^ 54) :
    ∃ k : ℤ, (2 * k = P + 1 ∨ 2 * k = P - 1) ∧ rndQ ((P : ℚ) * 2 ^ p) = ((k * 2 ^ (p + 1) : ℤ) : ℚ) := by
  have hP1 : (2 : ℚ) ^ 53 ≤ |(P : ℚ)| := by exact_mod_cast h1
  have hP2 : |(P : ℚ)| < (2 : ℚ) ^ 54 := by exact_mod_cast h2
  have habs : |(P : ℚ) * 2 ^ p| = |(P : ℚ)| * 2 ^ p := by rw [abs_mul, abs_of_pos (by positivity : (0 : ℚ) < 2 ^ p)]
  have hlog : Int.log 2 |(P : ℚ) * 2 ^ p| = 53 + p := by
    apply log_eq
    · rw [habs, two_zpow_add, zpow_natCast]
      exact mul_le_mul_of_nonneg_right (by exact_mod_cast hP1) (by positivity)
    · rw [habs, show (53 : ℤ) + p + 1 = 54 + p by ring, two_zpow_add, zpow_natCast]
      exact mul_lt_mul_of_pos_right (by exact_mod_cast hP2) (by positivity)
  have hulp : ulpExp ((P : ℚ) * 2 ^ p) = ((p + 1 : ℕ) : ℤ) := by
    unfold ulpExp
    rw [hlog, max_eq_left (by omega)]
    push_cast
    ring
  unfold rndQ
  rw [hulp, zpow_natCast]
  have hd : (P : ℚ) * 2 ^ p / 2 ^ (p + 1) = P / 2 := by
    rw [pow_succ]
    field_simp
  rw [hd]
  refine ⟨rneInt ((P : ℚ) / 2), ?_, by push_cast; rfl⟩
  have herr := rneInt_err ((P : ℚ) / 2)
  generalize rneInt ((P : ℚ) / 2) = k at herr
  rw [abs_le] at herr
  have a1 : (P : ℚ) - 1 ≤ 2 * k := by linarith [herr.1]
  have a2 : (2 : ℚ) * k ≤ P + 1 := by linarith [herr.2]
  have b1 : P - 1 ≤ 2 * k := by exact_mod_cast a1
  have b2 : 2 * k ≤ P + 1 := by exact_mod_cast a2
  omega

theorem whole_refused {p L : Nat} (hp : 0 < p) (hL : 2 ^ L * 5 ^ p < 2 ^ 53) {n : ℤ} (hodd : ¬ 2 ∣ n)
    (hlow : 2 ^ 53 < |n| * 5 ^ p) (hhigh : |n| < 2 ^ (L + 1)) : f8IsI8 [.fin n] p = false := by
  have h5 : (5 : ℤ) ≤ 5 ^ p := by
    calc (5 : ℤ) = 5 ^ 1 := by norm_num
      _ ≤ 5 ^ p := pow_le_pow_right₀ (by norm_num) hp
  have hL' : (2 : ℤ) ^ L * 5 ^ p < 2 ^ 53 := by exact_mod_cast hL
  have hL51 : L < 51 := by
    by_contra hc
    have : (2 : ℤ) ^ 51 ≤ 2 ^ L := pow_le_pow_right₀ (by norm_num) (by omega)
    nlinarith
  have hp60 : p ≤ 50 := by
    by_contra hc
    have : (5 : ℤ) ^ 51 ≤ 5 ^ p := pow_le_pow_right₀ (by norm_num) (by omega)
    have h2 : (1 : ℤ) ≤ 2 ^ L := one_le_pow₀ (by norm_num)
    have : (5 : ℤ) ^ 51 ≤ 2 ^ L * 5 ^ p := by nlinarith
    norm_num at this hL'
    omega
  have habs : |n * 5 ^ p| = |n| * 5 ^ p := by rw [abs_mul, abs_of_pos (by positivity : (0 : ℤ) < 5 ^ p)]
  have hPodd : ¬ 2 ∣ n * 5 ^ p := by
    intro hd
    have hn : n % 2 = 1 := by omega
    have h5m : ((5 : ℤ) ^ p) % 2 = 1 := by
      rw [← Int.odd_iff]
      exact Odd.pow (by decide)
    have := Int.mul_emod n (5 ^ p) 2
    rw [hn, h5m] at this
    omega
  have hP54 : |n * 5 ^ p| < 2 ^ 54 := by
    rw [habs]
    have : |n| * 5 ^ p < 2 ^ (L + 1) * 5 ^ p := mul_lt_mul_of_pos_right hhigh (by positivity)
    rw [pow_succ] at this
    linarith
  obtain ⟨k, hk, hr⟩ := rndQ_odd (p := p) hPodd (by rw [habs]; exact hlow.le) hP54
  have hten : (n : ℚ) * 10 ^ p = ((n * 5 ^ p : ℤ) : ℚ) * 2 ^ p := by exact_mod_cast ten_pow n p
  have hbig : |(n : ℚ) * 10 ^ p| ≤ (2 : ℚ) ^ (1023 : ℤ) := by
    rw [hten, abs_mul, abs_of_pos (by positivity : (0 : ℚ) < 2 ^ p)]
    have e1 : |((n * 5 ^ p : ℤ) : ℚ)| ≤ 2 ^ 54 := by exact_mod_cast hP54.le
    have e2 : (2 : ℚ) ^ p ≤ 2 ^ 50 := pow_le_pow_right₀ (by norm_num) hp60
    calc _ ≤ (2 : ℚ) ^ 54 * 2 ^ 50 := mul_le_mul e1 e2 (by positivity) (by positivity)
      _ = (2 : ℚ) ^ (104 : ℤ) := by norm_num
      _ ≤ _ := two_zpow_le (by norm_num)
  have h1 : rnd ((n : ℚ) * 10 ^ p) = .fin ((k * 2 ^ (p + 1) : ℤ) : ℚ) := by rw [rnd_fin hbig, hten, hr]
  rw [whole_one, npRound_steps n p h1]
  -- the quotient is beside the number
  have h5q : (0 : ℚ) < 5 ^ p := by positivity
  obtain ⟨s, hs, hsk⟩ : ∃ s : ℤ, (s = 1 ∨ s = -1) ∧ 2 * k = n * 5 ^ p + s := by
    rcases hk with hk | hk
    · exact ⟨1, .inl rfl, hk⟩
    · exact ⟨-1, .inr rfl, by omega⟩
  have hquot : ((k * 2 ^ (p + 1) : ℤ) : ℚ) / 10 ^ p = n + s / 5 ^ p := by
    have e : (10 : ℚ) ^ p = 5 ^ p * 2 ^ p := by rw [← mul_pow]; norm_num
    have hskq : (2 : ℚ) * k = n * 5 ^ p + s := by exact_mod_cast hsk
    rw [e]
    push_cast
    rw [pow_succ]
    field_simp
    linarith
  rw [hquot]
  have hulp : (2 : ℚ) ^ ((L : ℤ) - 53) < 1 / 5 ^ p := by
    rw [lt_div_iff₀ h5q, sub_eq_add_neg, two_zpow_add, zpow_natCast]
    have : (2 : ℚ) ^ L * 5 ^ p < 2 ^ 53 := by exact_mod_cast hL
    rw [zpow_neg]
    have e53 : (2 : ℚ) ^ (53 : ℤ) = 2 ^ 53 := by norm_num
    rw [e53, mul_assoc, mul_comm _ ((5 : ℚ) ^ p), ← mul_assoc, ← div_eq_mul_inv, div_lt_one (by positivity)]
    exact this
  have hfloat : IsFloat ((n : ℚ) + s * (2 : ℚ) ^ ((L : ℤ) - 52)) := by
    clear hbig
    refine ⟨n * 2 ^ (52 - L) + s, (L : ℤ) - 52, ?_, by omega, ?_⟩
    · have e1 : |n| ≤ 2 ^ (L + 1) - 1 := by omega
      have e2 : |n * 2 ^ (52 - L)| ≤ (2 ^ (L + 1) - 1) * 2 ^ (52 - L) := by
        rw [abs_mul, abs_of_pos (by positivity : (0 : ℤ) < 2 ^ (52 - L))]
        exact mul_le_mul_of_nonneg_right e1 (by positivity)
      have e3 : (2 : ℤ) ^ (L + 1) * 2 ^ (52 - L) = 2 ^ 53 := by rw [← pow_add]; congr 1; omega
      have e4 : (2 : ℤ) ≤ 2 ^ (52 - L) := by
        calc (2 : ℤ) = 2 ^ 1 := by norm_num
          _ ≤ _ := pow_le_pow_right₀ (by norm_num) (by omega)
      have e5 : |s| = 1 := by rcases hs with rfl | rfl <;> rfl
      have e6 := abs_add_le (n * 2 ^ (52 - L)) s
      rw [sub_mul, e3, one_mul] at e2
      generalize (2 : ℤ) ^ (52 - L) = w at *
      linarith
    · push_cast
      rw [add_mul, mul_assoc]
      congr 1
      rw [← zpow_natCast, ← two_zpow_add, Nat.cast_sub (by omega)]
      simp
  have hnear := rndQ_nearest hfloat ((n : ℚ) + s / 5 ^ p)
  have hsq : |(s : ℚ)| = 1 := by rcases hs with rfl | rfl <;> norm_num
  have hcand : |(n : ℚ) + s * (2 : ℚ) ^ ((L : ℤ) - 52) - (n + s / 5 ^ p)| < 1 / 5 ^ p := by
    have e : (n : ℚ) + s * (2 : ℚ) ^ ((L : ℤ) - 52) - (n + s / 5 ^ p) = s * ((2 : ℚ) ^ ((L : ℤ) - 52) - 1 / 5 ^ p) := by ring
    rw [e, abs_mul, hsq, one_mul]
    have e2 : (2 : ℚ) ^ ((L : ℤ) - 52) = 2 * (2 : ℚ) ^ ((L : ℤ) - 53) := by
      rw [show (L : ℤ) - 52 = 1 + (L - 53) by ring, two_zpow_add, zpow_one]
    have e3 := two_zpow_pos ((L : ℤ) - 53)
    rw [e2, abs_lt]
    constructor <;> linarith
  have hne : rndQ ((n : ℚ) + s / 5 ^ p) ≠ n := by
    intro e
    rw [e, sub_add_cancel_left, abs_neg, abs_div, hsq, abs_of_pos h5q] at hnear
    linarith
  have hsmall : |(n : ℚ) + s / 5 ^ p| ≤ (2 : ℚ) ^ (1023 : ℤ) := by
    have e1 : |(n : ℚ)| ≤ 2 ^ 52 := by
      have : |n| ≤ 2 ^ 52 := hhigh.le.trans (pow_le_pow_right₀ (by norm_num) (by omega))
      exact_mod_cast this
    have e2 : |(s : ℚ) / 5 ^ p| ≤ 1 := by
      rw [abs_div, hsq, abs_of_pos h5q, div_le_one h5q]
      exact one_le_pow₀ (by norm_num)
    calc _ ≤ |(n : ℚ)| + |(s : ℚ) / 5 ^ p| := abs_add_le _ _
      _ ≤ 2 ^ 52 + 1 := add_le_add e1 e2
      _ ≤ (2 : ℚ) ^ (53 : ℤ) := by norm_num
      _ ≤ _ := two_zpow_le (by norm_num)
  rw [rnd_fin hsmall]
  simp only [F64.beq, decide_eq_false_iff_not]
  exact fun e => hne e.symm

/-- **C123**, exactly, up to the power of two `2 ^ (L + 1)` after `2 ^ 53 / 5 ^ p`: a whole number counts as an integer if it
is small enough, or even. -/
theorem C123_exact {p L : Nat} (hp : 0 < p) (hL : 2 ^ L * 5 ^ p < 2 ^ 53) {n : ℤ} (hn : |n| < 2 ^ (L + 1)) :
    f8IsI8 [.fin n] p = true ↔ |n| * 5 ^ p ≤ 2 ^ 53 ∨ 2 ∣ n := by
  constructor
  · intro h
    by_contra hc
    push Not at hc
    rw [whole_refused hp hL hc.2 hc.1 hn] at h
    exact absurd h (by decide)
  · have hL' : (2 : ℤ) ^ L * 5 ^ p < 2 ^ 53 := by exact_mod_cast hL
    have h1 : (1 : ℤ) ≤ 2 ^ L := one_le_pow₀ (by norm_num)
    have hp22 : p ≤ 22 := by
      by_contra hc
      have : (5 : ℤ) ^ 23 ≤ 5 ^ p := pow_le_pow_right₀ (by norm_num) (by omega)
      have : (5 : ℤ) ^ 23 ≤ 2 ^ L * 5 ^ p := by nlinarith
      norm_num at this hL'
      omega
    rintro (h | ⟨m, rfl⟩)
    · have := C123_accepted_partial p hp22 [n] (by simpa using h)
      simpa using this
    · have hm : |m| < 2 ^ L := by
        rw [abs_mul, show |(2 : ℤ)| = 2 from rfl, pow_succ] at hn
        omega
      have hm5 : |m * 5 ^ p| ≤ 2 ^ 53 := by
        rw [abs_mul, abs_of_pos (by positivity : (0 : ℤ) < 5 ^ p)]
        exact (mul_lt_mul_of_pos_right hm (by positivity)).le.trans hL'.le
      refine whole_accepted ?_ (m * 5 ^ p) (p + 1) (by omega) hm5 ?_
      · have : (1 : ℤ) ≤ 5 ^ p := one_le_pow₀ (by norm_num)
        have h2 : (2 : ℤ) ^ L < 2 ^ 52 := by
          have h5 : (5 : ℤ) ≤ 5 ^ p := by
            calc (5 : ℤ) = 5 ^ 1 := by norm_num
              _ ≤ 5 ^ p := pow_le_pow_right₀ (by norm_num) hp
          nlinarith
        refine hn.le.trans ?_
        rw [pow_succ]
        omega
      · rw [ten_pow, pow_succ]
        ring

/-- Finding, C123, with the default of 6 digits: up to `2 ^ 40` the whole numbers that do not count as integers are the odd
ones from 576 460 752 305 on; one of them makes its column a column of doubles. -/
theorem C123_finding (n : ℤ) (hn : |n| < 2 ^ 40) :
    f8IsI8 [.fin n] 6 = false ↔ ¬ 2 ∣ n ∧ 576460752304 ≤ |n| := by
  have := C123_exact (p := 6) (L := 39) (by decide) (by decide) hn
  rw [← Bool.not_eq_true, this]
  omega

/-- There are such numbers for every `float_precision` from 1 to 21. -/
theorem C123_every_precision : ∀ q ∈ [((1 : Nat), (1801439850948199 : ℚ)), (2, 360287970189641), (3, 72057594037929),
    (4, 14411518807587), (5, 2882303761519), (6, 576460752305), (7, 115292150461), (8, 23058430093), (9, 4611686019),
    (10, 922337205), (11, 184467441), (12, 36893489), (13, 7378699), (14, 1475741), (15, 295149), (16, 59031), (17, 11807),
    (18, 2363), (19, 473), (20, 95), (21, 19)], f8IsI8 [.fin q.2] q.1 = false := by decide +kernel

/-- With 0 digits every whole number up to `2 ^ 53` counts as an integer. -/
theorem C123_no_digits (ns : List ℤ) (h : ∀ n ∈ ns, |n| ≤ 2 ^ 53) :
    f8IsI8 (ns.map fun n : ℤ => F64.fin (n : ℚ)) 0 = true :=
  C123_accepted_partial 0 (by decide) ns (by simpa using h)

/-- One number that does not count makes a column of numbers a column of doubles, whatever else is in it. -/
theorem C123_column (env : Env) (prec : Nat) (cells : List (Option Val)) (h1 : cells.any isTs = false)
    (h2 : cells.any isText = false) (n : ℤ) (h3 : some (.f8 (.fin n)) ∈ cells) (h4 : f8IsI8 [.fin n] prec = false) :
    materialise env prec cells = ⟨.f8, cells⟩ := by
  have a2 : cells.any isNum = true := List.any_eq_true.mpr ⟨_, h3, rfl⟩
  have a3 : cells.all (wholeNum prec) = false := List.all_eq_false.mpr ⟨_, h3, by simp [wholeNum, h4]⟩
  have ht : columnType prec cells = .f8 := by
    unfold columnType
    rw [h1, a2, h2, a3]
    rfl
  unfold materialise
  rw [ht]
  congr 1
  rw [List.map_congr_left (g := id), List.map_id]
  intro v hv
  cases v with
  | none => rfl
  | some v => cases v <;> rfl

/-! ## Examples -/

example : f8IsI8 [.fin 1, .fin 576460752303, .fin 770123456788] 6 = true ∧ f8IsI8 [.fin 1, .fin 770123456789] 6 = false ∧
    f8IsI8 [.fin 770123456789] 5 = true := by decide +kernel

/-- A workbook with one column of two numbers of 12 digits, in the number format `0`. -/
def exLong (bits : Nat) (digits : List (Fin 10)) : DBook where
  sheets := [(['S'], [[⟨0, 0, .number 0x423CBE991A140000 ⟨none, [1, 2, 3, 4, 5, 6, 7, 8, 9, 0, 1, 2], false, [], none⟩⟩],
    [⟨0, 0, .number bits ⟨none, digits, false, [], none⟩⟩]])]
  shared := []
  formats := [1]

/-- Finding, C123, for whole files: with 770123456788 the column has integers, with 770123456789 it has doubles. -/
theorem C123_file_finding :
    (∀ z ∈ [(exLong 0x426669DDEC228000 [7, 7, 0, 1, 2, 3, 4, 5, 6, 7, 8, 8]).xlsx.entries,
        (exLong 0x426669DDEC228000 [7, 7, 0, 1, 2, 3, 4, 5, 6, 7, 8, 8]).xlsb.entries],
      exReadTwo z = .ok [.arr ⟨.i8, [some (.i8 123456789012), some (.i8 770123456788)]⟩]) ∧
    (∀ z ∈ [(exLong 0x426669DDEC22A000 [7, 7, 0, 1, 2, 3, 4, 5, 6, 7, 8, 9]).xlsx.entries,
        (exLong 0x426669DDEC22A000 [7, 7, 0, 1, 2, 3, 4, 5, 6, 7, 8, 9]).xlsb.entries],
      exReadTwo z = .ok [.arr ⟨.f8, [some (.f8 (.fin 123456789012)), some (.f8 (.fin 770123456789))]⟩]) := by
  decide +kernel

end Rxls
