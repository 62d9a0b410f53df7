import Verif.Props.WholeNumbers

/-! # Rounding a whole number that is the result of rounding -/

namespace Rxls

theorem ulp_same {t v : ℚ} {m E : ℤ} (hE : -1074 ≤ E) (ht : t = m * (2 : ℚ) ^ E) (h1 : 2 ^ 52 < |m|) (h2 : |m| < 2 ^ 53)
    (hv : |v - t| ≤ (2 : ℚ) ^ E / 2) : ulpExp v = E := by
  have hp := two_zpow_pos E
  have habs : |t| = |(m : ℚ)| * (2 : ℚ) ^ E := by rw [ht, abs_mul, abs_of_pos hp]
  have m1 : (2 : ℚ) ^ 52 + 1 ≤ |(m : ℚ)| := by
    have : (2 : ℤ) ^ 52 + 1 ≤ |m| := h1
    exact_mod_cast this
  have m2 : |(m : ℚ)| ≤ (2 : ℚ) ^ 53 - 1 := by
    have : |m| + 1 ≤ 2 ^ 53 := h2
    have : |(m : ℚ)| + 1 ≤ (2 : ℚ) ^ 53 := by exact_mod_cast this
    linarith
  have a1 : |t| - |v - t| ≤ |v| := by
    have := abs_sub_abs_le_abs_sub t v
    rw [abs_sub_comm t v] at this
    linarith
  have a2 : |v| ≤ |t| + |v - t| := by
    have := abs_add_le t (v - t)
    rw [add_sub_cancel] at this
    exact this
  have hlog : Int.log 2 |v| = E + 52 := by
    apply log_eq
    · rw [two_zpow_add]
      have : (2 : ℚ) ^ (52 : ℤ) = 2 ^ 52 := by norm_num
      rw [this]
      nlinarith
    · rw [show E + 52 + 1 = E + 53 by ring, two_zpow_add]
      have : (2 : ℚ) ^ (53 : ℤ) = 2 ^ 53 := by norm_num
      rw [this]
      nlinarith
  unfold ulpExp
  rw [hlog, max_eq_left (by omega)]
  ring

theorem rneInt_closer {m : ℤ} {a b : ℚ} (ha : rneInt a = m) (hd : |a - m| ≤ 1 / 2) (h : |b - m| ≤ |a - m|) : rneInt b = m := by
  have hb := rneInt_err b
  by_cases hlt : |b - m| < 1 / 2
  · have h1 : |((rneInt b - m : ℤ) : ℚ)| < 1 := by
      push_cast
      calc |(rneInt b : ℚ) - m| = |((rneInt b : ℚ) - b) + (b - m)| := by ring_nf
        _ ≤ |(rneInt b : ℚ) - b| + |b - m| := abs_add_le _ _
        _ < 1 := by linarith
    have h2 : |rneInt b - m| < 1 := by exact_mod_cast h1
    rw [Int.abs_lt_one_iff] at h2
    omega
  · have eb : |b - m| = 1 / 2 := by linarith
    have ea : |a - m| = 1 / 2 := by linarith
    -- the fractional parts are halves
    have half : ∀ x : ℚ, |x - m| = 1 / 2 → x - ⌊x⌋ = 1 / 2 := by
      intro x hx
      rcases (abs_eq (by norm_num)).mp hx with e | e
      · have : ⌊x⌋ = m := by
          rw [Int.floor_eq_iff]
          constructor <;> linarith
        rw [this]
        exact e
      · have : ⌊x⌋ = m - 1 := by
          rw [Int.floor_eq_iff]
          push_cast
          constructor <;> linarith
        rw [this]
        push_cast
        linarith
    have pa := rneInt_tie a (half a ea)
    have pb := rneInt_tie b (half b eb)
    rw [ha] at pa
    have h1 : |((rneInt b - m : ℤ) : ℚ)| ≤ 1 := by
      push_cast
      calc |(rneInt b : ℚ) - m| = |((rneInt b : ℚ) - b) + (b - m)| := by ring_nf
        _ ≤ |(rneInt b : ℚ) - b| + |b - m| := abs_add_le _ _
        _ ≤ 1 := by linarith
    have h2 : |rneInt b - m| ≤ 1 := by exact_mod_cast h1
    rw [abs_le] at h2
    omega

/-- A number at most as far from `t` as one that is rounded to `t` is rounded to `t`, unless `t` is a power of two. -/
theorem rndQ_near {t w v : ℚ} {m E : ℤ} (hE : -1074 ≤ E) (ht : t = m * (2 : ℚ) ^ E) (h1 : 2 ^ 52 < |m|) (h2 : |m| < 2 ^ 53)
    (hw : rndQ w = t) (h : |v - t| ≤ |w - t|) : rndQ v = t := by
  have hp := two_zpow_pos E
  have float : ∀ s : ℤ, |s| = 1 → IsFloat (t + s * (2 : ℚ) ^ E) := by
    intro s hs
    have hms : |m + s| ≤ 2 ^ 53 := by
      have := abs_add_le m s
      omega
    obtain ⟨a, e, ha, he, hq⟩ := isFloat_int hms
    by_cases hlt : |m + s| < 2 ^ 53
    · exact ⟨m + s, E, hlt, hE, by rw [ht]; push_cast; ring⟩
    · have heq : |m + s| = 2 ^ 53 := by omega
      rcases (abs_eq (by norm_num)).mp heq with e | e
      · refine ⟨2 ^ 52, E + 1, by norm_num, by omega, ?_⟩
        have : t + s * (2 : ℚ) ^ E = ((m + s : ℤ) : ℚ) * (2 : ℚ) ^ E := by rw [ht]; push_cast; ring
        rw [this, e, two_zpow_add]
        push_cast
        ring
      · refine ⟨-2 ^ 52, E + 1, by norm_num, by omega, ?_⟩
        have : t + s * (2 : ℚ) ^ E = ((m + s : ℤ) : ℚ) * (2 : ℚ) ^ E := by rw [ht]; push_cast; ring
        rw [this, e, two_zpow_add]
        push_cast
        ring
  have hd : |w - t| ≤ (2 : ℚ) ^ E / 2 := by
    have n1 := rndQ_nearest (float 1 rfl) w
    have n2 := rndQ_nearest (float (-1) rfl) w
    rw [hw, abs_sub_comm t w] at n1 n2
    push_cast at n1 n2
    rw [abs_le]
    constructor
    · by_contra hc
      push Not at hc
      rw [abs_of_neg (by linarith : w - t < 0)] at n2
      have : |t + -1 * (2 : ℚ) ^ E - w| < -(w - t) := by
        rw [abs_lt]
        constructor <;> linarith
      linarith
    · by_contra hc
      push Not at hc
      rw [abs_of_pos (by linarith : 0 < w - t)] at n1
      have : |t + 1 * (2 : ℚ) ^ E - w| < w - t := by
        rw [abs_lt]
        constructor <;> linarith
      linarith
  have uw := ulp_same hE ht h1 h2 hd
  have uv := ulp_same hE ht h1 h2 (h.trans hd)
  have scale : ∀ x : ℚ, |x / (2 : ℚ) ^ E - m| = |x - t| / (2 : ℚ) ^ E := by
    intro x
    rw [ht, ← abs_of_pos hp, ← abs_div, abs_of_pos hp, sub_div, mul_div_cancel_right₀ _ hp.ne']
  unfold rndQ at hw ⊢
  rw [uw, ht] at hw
  rw [uv, ht]
  have hm : rneInt (w / (2 : ℚ) ^ E) = m := by exact_mod_cast mul_right_cancel₀ hp.ne' hw
  rw [rneInt_closer hm ?_ ?_]
  · rw [scale, div_le_iff₀ hp]
    linarith
  · rw [scale, scale]
    exact div_le_div_of_nonneg_right h hp.le

theorem rneInt_float {r : ℚ} (h : IsFloat r) : IsFloat (rneInt r) := by
  obtain ⟨m, e, hm, he, hr⟩ := h
  by_cases h0 : 0 ≤ e
  · obtain ⟨k, hk⟩ := two_zpow_int h0
    have : r = ((m * k : ℤ) : ℚ) := by rw [hr, hk]; push_cast; rfl
    rw [this, rneInt_int, ← this]
    exact ⟨m, e, hm, he, hr⟩
  · apply isFloat_int
    have hb : |r| ≤ (2 : ℚ) ^ 53 := by
      rw [hr, abs_mul, abs_of_pos (two_zpow_pos e)]
      have h1 : (2 : ℚ) ^ e ≤ 1 := by
        have := two_zpow_le (a := e) (b := 0) (by omega)
        simpa using this
      have h2 : |(m : ℚ)| ≤ 2 ^ 53 := by exact_mod_cast hm.le
      calc _ ≤ (2 : ℚ) ^ 53 * 1 := mul_le_mul h2 h1 (two_zpow_pos e).le (by positivity)
        _ = _ := mul_one _
    rw [abs_le] at hb ⊢
    have b1 := rneInt_mono hb.1
    have b2 := rneInt_mono hb.2
    have e1 : rneInt ((2 : ℚ) ^ 53) = 2 ^ 53 := by
      have := rneInt_int (2 ^ 53)
      push_cast at this
      exact this
    have e2 : rneInt (-(2 : ℚ) ^ 53) = -2 ^ 53 := by rw [rneInt_neg, e1]
    rw [e1] at b2
    rw [e2] at b1
    exact ⟨b1, b2⟩

/-- The power of ten divided out again is exact for a whole number, if the product is. -/
theorem npRound_exact {n : ℤ} {p : Nat} (hn : rnd (n : ℚ) = .fin n) (h : rnd ((n : ℚ) * 10 ^ p) = .fin ((n : ℚ) * 10 ^ p)) :
    npRound (.fin n) p = .fin n := by
  have h0 : (10 : ℚ) ^ p ≠ 0 := by positivity
  have h1 : rnd ((n : ℚ) * 10 ^ p) = .fin ((n * 10 ^ p : ℤ) : ℚ) := by rw [h]; push_cast; rfl
  rw [npRound_steps n p h1]
  push_cast
  rw [mul_div_cancel_right₀ _ h0, hn]

theorem rnd_power {s : ℤ} (hs : |s| = 1) (k : Nat) (hk : k ≤ 63) {p : Nat} (hp : p ≤ 22) :
    npRound (.fin ((s * 2 ^ k : ℤ) : ℚ)) p = .fin ((s * 2 ^ k : ℤ) : ℚ) := by
  have float : ∀ (a : ℤ) (e : Nat), |a| ≤ 2 ^ 53 → e ≤ 100 → rnd ((a : ℚ) * 2 ^ e) = .fin ((a : ℚ) * 2 ^ e) := by
    intro a e ha he
    obtain ⟨b, f, hb, hf, hq⟩ := isFloat_int ha
    apply rnd_isF64
    refine ⟨⟨b, f + e, hb, by omega, by rw [hq, two_zpow_add, zpow_natCast, mul_assoc]⟩, ?_⟩
    rw [abs_mul, abs_of_pos (by positivity : (0 : ℚ) < 2 ^ e)]
    have h1 : |(a : ℚ)| ≤ 2 ^ 53 := by exact_mod_cast ha
    have h2 : (2 : ℚ) ^ e ≤ 2 ^ 100 := pow_le_pow_right₀ (by norm_num) he
    calc |(a : ℚ)| * 2 ^ e ≤ 2 ^ 53 * 2 ^ 100 := mul_le_mul h1 h2 (by positivity) (by positivity)
      _ = 2 ^ 153 := by rw [← pow_add]
      _ < 2 ^ 1024 := pow_lt_pow_right₀ (by norm_num) (by norm_num)
  have h5 : |s * 5 ^ p| ≤ 2 ^ 53 := by
    rw [abs_mul, hs, one_mul, abs_of_pos (by positivity)]
    calc (5 : ℤ) ^ p ≤ 5 ^ 22 := pow_le_pow_right₀ (by norm_num) hp
      _ ≤ 2 ^ 53 := by norm_num
  apply npRound_exact
  · push_cast
    exact float s k (by omega) (by omega)
  · have e : ((s * 2 ^ k : ℤ) : ℚ) * 10 ^ p = ((s * 5 ^ p : ℤ) : ℚ) * 2 ^ (k + p) := by
      rw [show (10 : ℚ) = 5 * 2 by norm_num, mul_pow, pow_add]
      push_cast
      ring
    rw [e]
    exact float _ _ h5 (by omega)

/-- A whole number that is the result of `np.round` is left as it is by `np.round`. -/
theorem npRound_again {x : F64} {n : ℤ} {p : Nat} (hp : p ≤ 22) (hn : |n| < 2 ^ 63) (h : npRound x p = .fin n) :
    npRound (.fin n) p = .fin n := by
  have hc : (0 : ℚ) < 10 ^ p := by positivity
  -- what is divided is a double
  obtain ⟨Y, hY, hq⟩ : ∃ Y : ℚ, IsFloat Y ∧ rndQ (Y / 10 ^ p) = n := by
    have fromDiv : ∀ Y : ℚ, F64.div (.fin Y) (.fin (10 ^ p)) = .fin n → rndQ (Y / 10 ^ p) = n := by
      intro Y hY
      simp only [F64.div, if_neg hc.ne'] at hY
      unfold rnd at hY
      split at hY
      · injection hY
      · cases hY
    unfold npRound at h
    cases x with
    | nan => simp [F64.mul, F64.rint, F64.div] at h
    | inf s => simp [F64.mul, F64.rint, F64.div] at h
    | fin q =>
      simp only [F64.mul] at h
      unfold rnd at h
      split at h
      · exact ⟨_, rneInt_float (rndQ_isFloat _), fromDiv _ h⟩
      · simp [F64.rint, F64.div] at h
  have hnf : IsFloat n := hq ▸ rndQ_isFloat _
  have hn64 : |(n : ℚ)| < 2 ^ 63 := by exact_mod_cast hn
  have hnr : rnd (n : ℚ) = .fin n :=
    rnd_isF64 ⟨hnf, hn64.trans (pow_lt_pow_right₀ (by norm_num) (by norm_num))⟩
  by_cases hsmall : |n * 10 ^ p| ≤ 2 ^ 53
  · apply npRound_exact hnr
    have := rnd_int hsmall
    push_cast at this
    exact this
  have hn0 : n ≠ 0 := by
    rintro rfl
    simp at hsmall
  have hnq : (n : ℚ) ≠ 0 := by exact_mod_cast hn0
  have hn1 : (1 : ℚ) ≤ |(n : ℚ)| := by exact_mod_cast Int.one_le_abs hn0
  -- the number in units of its last place
  obtain ⟨m, E, hE, hnm, hm1, hm2⟩ : ∃ m E : ℤ, -1074 ≤ E ∧ (n : ℚ) = m * (2 : ℚ) ^ E ∧ 2 ^ 52 ≤ |m| ∧ |m| < 2 ^ 53 := by
    have hself := rndQ_exact hnf
    refine ⟨rneInt ((n : ℚ) / (2 : ℚ) ^ ulpExp n), ulpExp n, ulpExp_ge _, hself.symm, ?_, ?_⟩
    · generalize hm : rneInt ((n : ℚ) / (2 : ℚ) ^ ulpExp n) = m
      have e : (n : ℚ) = m * (2 : ℚ) ^ ulpExp n := by rw [← hm]; exact hself.symm
      have hlog := log_le hnq
      have hl0 : 0 ≤ Int.log 2 |(n : ℚ)| := by
        by_contra hneg
        have := lt_log (n : ℚ)
        have h2 := two_zpow_le (a := Int.log 2 |(n : ℚ)| + 1) (b := 0) (by omega)
        rw [zpow_zero] at h2
        linarith
      have hul : Int.log 2 |(n : ℚ)| = ulpExp n + 52 := by unfold ulpExp; omega
      rw [hul, two_zpow_add] at hlog
      have hp2 := two_zpow_pos (ulpExp n)
      have habs : |(n : ℚ)| = |(m : ℚ)| * (2 : ℚ) ^ ulpExp n := by
        conv_lhs => rw [e]
        rw [abs_mul, abs_of_pos hp2]
      rw [habs, mul_comm] at hlog
      have := le_of_mul_le_mul_right hlog hp2
      have h52 : (2 : ℚ) ^ (52 : ℤ) = 2 ^ 52 := by norm_num
      rw [h52] at this
      exact_mod_cast this
    · generalize hm : rneInt ((n : ℚ) / (2 : ℚ) ^ ulpExp n) = m
      have e : (n : ℚ) = m * (2 : ℚ) ^ ulpExp n := by rw [← hm]; exact hself.symm
      have hlt := abs_lt_ulp (n : ℚ)
      have hp2 := two_zpow_pos (ulpExp n)
      have habs : |(n : ℚ)| = |(m : ℚ)| * (2 : ℚ) ^ ulpExp n := by
        conv_lhs => rw [e]
        rw [abs_mul, abs_of_pos hp2]
      rw [habs, two_zpow_add, mul_comm] at hlt
      have := lt_of_mul_lt_mul_left hlt hp2.le
      have h53 : (2 : ℚ) ^ (53 : ℤ) = 2 ^ 53 := by norm_num
      rw [h53] at this
      exact_mod_cast this
  by_cases hpow : |m| = 2 ^ 52
  · -- a power of two
    obtain ⟨s, hs, hms⟩ : ∃ s : ℤ, |s| = 1 ∧ m = s * 2 ^ 52 := by
      rcases (abs_eq (by norm_num)).mp hpow with e | e
      · exact ⟨1, rfl, by rw [e]; norm_num⟩
      · exact ⟨-1, rfl, by rw [e]; norm_num⟩
    have h52 : (2 : ℚ) ^ (52 : ℤ) = 2 ^ 52 := by norm_num
    have hn' : (n : ℚ) = s * (2 : ℚ) ^ (52 + E) := by
      rw [hnm, hms, two_zpow_add, h52]
      push_cast
      ring
    have habs : |(n : ℚ)| = (2 : ℚ) ^ (52 + E) := by
      have : |(s : ℚ)| = 1 := by exact_mod_cast hs
      rw [hn', abs_mul, this, one_mul, abs_of_pos (two_zpow_pos _)]
    have hk0 : 0 ≤ 52 + E := by
      by_contra hneg
      have := two_zpow_lt (a := 52 + E) (b := 0) (by omega)
      rw [zpow_zero, ← habs] at this
      linarith
    have hk63 : 52 + E < 63 := by
      rw [← two_zpow_lt_iff, ← habs]
      have : (2 : ℚ) ^ (63 : ℤ) = 2 ^ 63 := by norm_num
      rw [this]
      exact hn64
    have hnn : n = s * 2 ^ (52 + E).toNat := by
      have : (n : ℚ) = ((s * 2 ^ (52 + E).toNat : ℤ) : ℚ) := by
        rw [hn']
        push_cast
        rw [← zpow_natCast, Int.toNat_of_nonneg hk0]
      exact_mod_cast this
    have := rnd_power hs (52 + E).toNat (by omega) hp
    rw [← hnn] at this
    exact this
  -- the product, rounded, is a whole number
  have hbig : (2 : ℚ) ^ 53 < |(n : ℚ) * 10 ^ p| := by
    push Not at hsmall
    exact_mod_cast hsmall
  obtain ⟨y, hy⟩ : ∃ y : ℤ, rndQ ((n : ℚ) * 10 ^ p) = y := by
    have hu : 0 ≤ ulpExp ((n : ℚ) * 10 ^ p) := by
      have := abs_lt_ulp ((n : ℚ) * 10 ^ p)
      by_contra hneg
      have h2 := two_zpow_le (a := ulpExp ((n : ℚ) * 10 ^ p) + 53) (b := 53) (by omega)
      have : (2 : ℚ) ^ (53 : ℤ) = 2 ^ 53 := by norm_num
      rw [this] at h2
      linarith
    obtain ⟨k, hk⟩ := two_zpow_int hu
    exact ⟨rneInt ((n : ℚ) * 10 ^ p / (2 : ℚ) ^ ulpExp ((n : ℚ) * 10 ^ p)) * k, by unfold rndQ; rw [hk]; push_cast; rfl⟩
  have hsize : |(n : ℚ) * 10 ^ p| ≤ (2 : ℚ) ^ (200 : ℤ) := by
    rw [abs_mul, abs_of_pos hc]
    have h10 : (10 : ℚ) ^ p ≤ 10 ^ 22 := pow_le_pow_right₀ (by norm_num) hp
    calc |(n : ℚ)| * 10 ^ p ≤ 2 ^ 63 * 10 ^ 22 := mul_le_mul hn64.le h10 hc.le (by positivity)
      _ ≤ (2 : ℚ) ^ (200 : ℤ) := by norm_num
  have h1 : rnd ((n : ℚ) * 10 ^ p) = .fin y := by
    rw [rnd_fin (hsize.trans (two_zpow_le (by norm_num))), hy]
  rw [npRound_steps n p h1]
  have hr : rndQ ((y : ℚ) / 10 ^ p) = n := by
    refine rndQ_near hE hnm (lt_of_le_of_ne hm1 (Ne.symm hpow)) hm2 hq ?_
    have hnear := rndQ_nearest hY ((n : ℚ) * 10 ^ p)
    rw [hy] at hnear
    have scale : ∀ z : ℚ, |z / 10 ^ p - n| = |z - n * 10 ^ p| / 10 ^ p := by
      intro z
      rw [← abs_of_pos hc, ← abs_div, abs_of_pos hc, sub_div, mul_div_cancel_right₀ _ hc.ne']
    rw [scale, scale]
    exact div_le_div_of_nonneg_right hnear hc.le
  unfold rnd
  rw [hr, if_pos (hn64.trans (pow_lt_pow_right₀ (by norm_num) (by norm_num)))]

/-- What counts as an integer counts as one after conversion to int64. -/
theorem whole_again {x : F64} {p : Nat} (hp : p ≤ 22) (h : f8IsI8 [x] p = true) : f8IsI8 [.fin (x.toI64 : ℚ)] p = true := by
  have low : f8IsI8 [.fin ((-(2 ^ 63) : ℤ) : ℚ)] p = true := by
    have := rnd_power (s := -1) rfl 63 (by decide) hp
    rw [whole_one, show (-(2 ^ 63) : ℤ) = -1 * 2 ^ 63 by norm_num, this]
    simp [F64.beq]
  have hb : F64.beq (F64.trunc x) (npRound x p) = true := by simpa [f8IsI8] using h
  cases x with
  | nan => simp [F64.trunc, F64.beq] at hb
  | inf s => exact low
  | fin q =>
    simp only [F64.toI64]
    split
    · rename_i hr
      have hround : npRound (.fin q) p = .fin (F64.truncQ q : ℚ) := by
        simp only [F64.trunc] at hb
        revert hb
        cases npRound (.fin q) p with
        | nan => simp [F64.beq]
        | inf s => simp [F64.beq]
        | fin z => simp only [F64.beq, decide_eq_true_eq]; rintro rfl; rfl
      by_cases hlow : F64.truncQ q = -(2 ^ 63)
      · rw [hlow]
        exact low
      · have := npRound_again hp (by rw [abs_lt]; omega) hround
        rw [whole_one, this]
        simp [F64.beq]
    · exact low

end Rxls
