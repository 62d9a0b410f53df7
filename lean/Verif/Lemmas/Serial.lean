import Verif.Lemmas.Dates

/-! # Rounding analysis of `f8_to_ms_win` -/

namespace Rxls

/-- Subtracting an integer that is at most twice the float is exact. -/
theorem sub_exact {q : ℚ} (hq : IsFloat q) {c : ℤ} (hc : 0 ≤ c) (h : (c : ℚ) ≤ 2 * q)
    (hlt : q < (2 : ℚ) ^ (52 : ℤ)) : IsFloat (q - c) := by
  have hcq : (0 : ℚ) ≤ c := by exact_mod_cast hc
  have hq0 : 0 ≤ q := by linarith
  by_cases hz : q = 0
  · have : (c : ℚ) = 0 := by rw [hz] at h; linarith
    rw [this, sub_zero]; exact hq
  have habs : |q| = q := abs_of_nonneg hq0
  have hE : ulpExp q ≤ 52 - 53 := ulpExp_le_of_abs_lt hz (by rw [habs]; exact hlt) (by norm_num)
  obtain ⟨P, hP⟩ := two_zpow_int (k := -ulpExp q) (by omega)
  set n := rneInt (q / (2 : ℚ) ^ ulpExp q) with hn
  have hr : q = n * (2 : ℚ) ^ ulpExp q := (rndQ_exact hq).symm
  have hpp : (2 : ℚ) ^ (-ulpExp q) * (2 : ℚ) ^ ulpExp q = 1 := by
    rw [← two_zpow_add, neg_add_cancel, zpow_zero]
  have hval : q - c = ((n - c * P : ℤ) : ℚ) * (2 : ℚ) ^ ulpExp q := by
    push_cast
    rw [sub_mul, ← hr, mul_assoc, ← hP, hpp, mul_one]
  refine ⟨n - c * P, ulpExp q, ?_, ulpExp_ge q, hval⟩
  have h1 : |q - c| < (2 : ℚ) ^ (ulpExp q + 53) := by
    have := abs_lt_ulp q
    rw [habs] at this
    rw [abs_lt]; constructor <;> linarith
  rw [hval, abs_mul, abs_of_pos (two_zpow_pos _), add_comm, two_zpow_add] at h1
  have h2 := lt_of_mul_lt_mul_right h1 (two_zpow_pos _).le
  have h3 : (2 : ℚ) ^ (53 : ℤ) = ((2 ^ 53 : ℤ) : ℚ) := by norm_num
  rw [h3] at h2
  exact_mod_cast h2

theorem serialOffset_cases (q : ℚ) : (q < 1 ∧ serialOffset q = 0) ∨
    (1 ≤ q ∧ q < 60 ∧ serialOffset q = 25568) ∨ (60 ≤ q ∧ serialOffset q = 25569) := by
  unfold serialOffset
  by_cases h1 : q < 1
  · left; exact ⟨h1, if_pos h1⟩
  · right
    rw [if_neg h1]
    by_cases h2 : q < 60
    · left; exact ⟨not_lt.1 h1, h2, if_pos h2⟩
    · right; exact ⟨not_lt.1 h2, if_neg h2⟩

/-- Error of the subtraction of the epoch offset. -/
theorem sub_offset_err {q : ℚ} (hq : IsFloat q) (_h0 : 0 ≤ q) (h1 : q < 2958466) :
    |rndQ (q - serialOffset q) - (q - serialOffset q)| ≤ 1 / 2 ^ 39 := by
  have exact0 : ∀ {x : ℚ}, IsFloat x → |rndQ x - x| ≤ 1 / 2 ^ 39 := by
    intro x hx
    rw [rndQ_exact hx, sub_self, abs_zero]; positivity
  have near : ∀ {x : ℚ}, |x| < (2 : ℚ) ^ (15 : ℤ) → |rndQ x - x| ≤ 1 / 2 ^ 39 := by
    intro x hx
    exact (rndQ_err_of_lt hx (by norm_num)).trans (by norm_num)
  rcases serialOffset_cases q with ⟨_, h⟩ | ⟨ha, hb, h⟩ | ⟨ha, h⟩
  · rw [h, sub_zero]; exact exact0 hq
  · rw [h]
    apply near
    rw [abs_lt]; norm_num; constructor <;> linarith
  · rw [h]
    by_cases hs : (25569 : ℚ) ≤ 2 * q
    · apply exact0
      have := sub_exact (c := 25569) hq (by norm_num) (by push_cast; exact hs)
        (h1.trans (by norm_num))
      push_cast at this; exact this
    · apply near
      rw [abs_lt]; norm_num; constructor <;> linarith

theorem sub_offset_bound {q : ℚ} (h0 : 0 ≤ q) (h1 : q < 2958466) :
    |q - serialOffset q| ≤ 2932897 := by
  rcases serialOffset_cases q with ⟨_, h⟩ | ⟨ha, hb, h⟩ | ⟨ha, h⟩ <;> rw [h, abs_le] <;>
    constructor <;> linarith

theorem f8ms_product {q : ℚ} (hq : IsFloat q) (h0 : 0 ≤ q) (h1 : q < 2958466) :
    f8ToMsWin (.fin q) = F64.truncQ (rndQ (rndQ (q - serialOffset q) * 86400000)) ∧
    |rndQ (rndQ (q - serialOffset q) * 86400000) - (q - serialOffset q) * 86400000| < 1 / 50 := by
  have hb := sub_offset_bound h0 h1
  have he := sub_offset_err hq h0 h1
  set d := q - serialOffset q
  set r := rndQ d with hr
  have hb' := abs_le.1 hb
  have he' := abs_le.1 he
  have hrlt : |r * 86400000| < (2 : ℚ) ^ (48 : ℤ) := by
    norm_num at he'
    rw [abs_lt]; norm_num; constructor <;> linarith [hb'.1, hb'.2, he'.1, he'.2]
  have he2 := rndQ_err_of_lt hrlt (by norm_num)
  have hp : |rndQ (r * 86400000)| ≤ (2 : ℚ) ^ (48 : ℤ) := rndQ_abs_le_two (by norm_num) hrlt.le
  refine ⟨?_, ?_⟩
  · rw [f8ToMsWin_eq]
    have hdl : |d| < (2 : ℚ) ^ (22 : ℤ) := lt_of_le_of_lt hb (by norm_num)
    rw [rnd_small hdl (by norm_num)]
    simp only [F64.mul]
    rw [rnd_small hrlt (by norm_num)]
    simp only [F64.toI64]
    rw [if_pos]
    have hp' := abs_le.1 hp
    norm_num at hp'
    unfold F64.truncQ
    split
    · constructor
      · exact Int.le_floor.2 (by push_cast; linarith [hp'.1])
      · exact Int.floor_lt.2 (by push_cast; linarith [hp'.2])
    · constructor
      · have : (-(2 ^ 63) : ℤ) < ⌈rndQ (r * 86400000)⌉ := Int.lt_ceil.2 (by push_cast; linarith [hp'.1])
        omega
      · have : ⌈rndQ (r * 86400000)⌉ ≤ (2 ^ 62 : ℤ) := Int.ceil_le.2 (by push_cast; linarith [hp'.2])
        omega
  · have he2' := abs_le.1 he2
    norm_num at he' he2'
    rw [abs_lt]
    constructor <;> linarith [he'.1, he'.2, he2'.1, he2'.2]

theorem truncQ_err (q : ℚ) : |(F64.truncQ q : ℚ) - q| < 1 := by
  unfold F64.truncQ
  split
  · have h1 := Int.floor_le q
    have h2 := Int.lt_floor_add_one q
    rw [abs_lt]; constructor <;> linarith
  · have h1 := Int.le_ceil q
    have h2 := Int.ceil_lt_add_one q
    rw [abs_lt]; constructor <;> linarith

theorem truncQ_mono {x y : ℚ} (h : x ≤ y) : F64.truncQ x ≤ F64.truncQ y := by
  unfold F64.truncQ
  split <;> split
  · exact Int.floor_mono h
  · exfalso; linarith
  · rename_i h1 h2
    have h3 : ⌈x⌉ ≤ 0 := Int.ceil_le.2 (by push_cast; linarith)
    have h4 : 0 ≤ ⌊y⌋ := Int.floor_nonneg.2 h2
    omega
  · exact Int.ceil_mono h

theorem f8ms_err {q : ℚ} (hq : IsFloat q) (h0 : 0 ≤ q) (h1 : q < 2958466) :
    |(f8ToMsWin (.fin q) : ℚ) - (q - serialOffset q) * 86400000| < 1 + 1 / 50 := by
  obtain ⟨he, hb⟩ := f8ms_product hq h0 h1
  rw [he]
  have ht := truncQ_err (rndQ (rndQ (q - serialOffset q) * 86400000))
  have h1 := abs_lt.1 hb
  have h2 := abs_lt.1 ht
  rw [abs_lt]; constructor <;> linarith [h1.1, h1.2, h2.1, h2.2]

theorem float_lt_one {q : ℚ} (hq : IsFloat q) (h0 : 0 ≤ q) (h1 : q < 1) :
    q ≤ 1 - 1 / 2 ^ 53 := by
  by_cases hz : q = 0
  · rw [hz]; norm_num
  have hE : ulpExp q ≤ 0 - 53 := ulpExp_le_of_abs_lt hz (by rw [abs_of_nonneg h0]; simpa using h1)
    (by norm_num)
  have hr : q = rneInt (q / (2 : ℚ) ^ ulpExp q) * (2 : ℚ) ^ ulpExp q := (rndQ_exact hq).symm
  set n := rneInt (q / (2 : ℚ) ^ ulpExp q)
  have hlt : q < (2 : ℚ) ^ (ulpExp q + 53) := by
    have := abs_lt_ulp q; rwa [abs_of_nonneg h0] at this
  have hn : n < 2 ^ 53 := by
    by_contra hcon
    have : ((2 ^ 53 : ℤ) : ℚ) ≤ n := by exact_mod_cast not_lt.1 hcon
    rw [add_comm, two_zpow_add] at hlt
    have h2 : (2 : ℚ) ^ (53 : ℤ) * (2 : ℚ) ^ ulpExp q ≤ n * (2 : ℚ) ^ ulpExp q :=
      mul_le_mul_of_nonneg_right (by norm_num at this ⊢; exact this) (two_zpow_pos _).le
    linarith
  have hn' : (n : ℚ) ≤ 2 ^ 53 - 1 := by
    have : n ≤ 2 ^ 53 - 1 := by omega
    exact_mod_cast this
  have hp : (2 : ℚ) ^ ulpExp q ≤ (2 : ℚ) ^ (-53 : ℤ) := two_zpow_le (by omega)
  have hn0 : (0 : ℚ) ≤ n := by
    by_contra hcon
    have : (n : ℚ) * (2 : ℚ) ^ ulpExp q < 0 := mul_neg_of_neg_of_pos (not_le.1 hcon) (two_zpow_pos _)
    linarith
  calc q = n * (2 : ℚ) ^ ulpExp q := hr
    _ ≤ (2 ^ 53 - 1) * (2 : ℚ) ^ (-53 : ℤ) := mul_le_mul hn' hp (two_zpow_pos _).le (by norm_num)
    _ = 1 - 1 / 2 ^ 53 := by norm_num

theorem last_fraction : rndQ ((1 - 1 / 2 ^ 53) * 86400000) < 86400000 := by decide +kernel

theorem f8ms_fraction {q : ℚ} (hq : IsFloat q) (h0 : 0 ≤ q) (h1 : q < 1) :
    0 ≤ f8ToMsWin (.fin q) ∧ f8ToMsWin (.fin q) < 86400000 := by
  obtain ⟨he, -⟩ := f8ms_product hq h0 (by linarith)
  have ho : serialOffset q = 0 := if_pos h1
  rw [he, ho, sub_zero, rndQ_exact hq]
  have hle : rndQ (q * 86400000) ≤ rndQ ((1 - 1 / 2 ^ 53) * 86400000) :=
    rndQ_mono (by have := float_lt_one hq h0 h1; linarith)
  have hge : 0 ≤ rndQ (q * 86400000) := by
    have := rndQ_mono (x := 0) (y := q * 86400000) (by linarith)
    rwa [rndQ_zero] at this
  have hlt := lt_of_le_of_lt hle last_fraction
  rw [F64.truncQ, if_pos hge]
  exact ⟨Int.floor_nonneg.2 hge, Int.floor_lt.2 (by push_cast; exact hlt)⟩

theorem f8ms_mono {x y : ℚ} (hx : IsFloat x) (hy : IsFloat y) (h0 : 0 ≤ x) (h1 : y < 2958466)
    (hxy : x ≤ y) (ho : serialOffset x = serialOffset y) :
    f8ToMsWin (.fin x) ≤ f8ToMsWin (.fin y) := by
  rw [(f8ms_product hx h0 (by linarith)).1, (f8ms_product hy (by linarith) h1).1]
  apply truncQ_mono
  apply rndQ_mono
  have : rndQ (x - serialOffset x) ≤ rndQ (y - serialOffset y) := rndQ_mono (by rw [ho]; linarith)
  linarith

/-- Reading back the double nearest to the exact serial of a millisecond. -/
theorem f8ms_roundtrip {T : ℤ} (h0 : -2203891200000 ≤ T) (h1 : T < 253402300800000) :
    ∃ s : ℚ, rnd ((T : ℚ) / 86400000 + 25569) = .fin s ∧ IsFloat s ∧ 60 ≤ s ∧ s < 2958466 ∧
      |rndQ (rndQ (s - serialOffset s) * 86400000) - T| < 1 / 20 ∧
      f8ToMsWin (.fin s) = F64.truncQ (rndQ (rndQ (s - serialOffset s) * 86400000)) := by
  have hT0 : (-2203891200000 : ℚ) ≤ T := by exact_mod_cast h0
  have hT1 : (T : ℚ) ≤ 253402300799999 := by
    have : T ≤ 253402300799999 := by omega
    exact_mod_cast this
  set e := (T : ℚ) / 86400000 + 25569 with he
  have hlo : 61 ≤ e := by
    rw [he]; linarith
  have hhi : e ≤ 253402300799999 / 86400000 + 25569 := by rw [he]; linarith
  have hlt : |e| < (2 : ℚ) ^ (22 : ℤ) := by
    rw [abs_of_nonneg (by linarith)]; norm_num at hhi ⊢; linarith
  have herr := rndQ_err_of_lt hlt (by norm_num)
  have herr' := abs_le.1 herr
  norm_num at herr' hhi
  have hs0 : 60 ≤ rndQ e := by linarith [herr'.1]
  have hs1 : rndQ e < 2958466 := by linarith [herr'.2]
  have hf := rndQ_isFloat e
  obtain ⟨hp, hb⟩ := f8ms_product hf (by linarith) hs1
  refine ⟨rndQ e, rnd_small hlt (by norm_num), hf, hs0, hs1, ?_, hp⟩
  have ho : serialOffset (rndQ e) = 25569 := by
    unfold serialOffset; rw [if_neg (by linarith), if_neg (by linarith)]
  rw [ho] at hb ⊢
  have hb' := abs_lt.1 hb
  have hTe : (T : ℚ) = (e - 25569) * 86400000 := by rw [he]; ring
  rw [hTe, abs_lt]
  constructor <;> linarith [herr'.1, herr'.2, hb'.1, hb'.2]

theorem truncQ_close {p : ℚ} {T : ℤ} (h : |p - T| < 1 / 20) :
    (0 < T → F64.truncQ p = T ∨ F64.truncQ p = T - 1) ∧
    (T < 0 → F64.truncQ p = T ∨ F64.truncQ p = T + 1) ∧ (T = 0 → F64.truncQ p = 0) := by
  have h' := abs_lt.1 h
  refine ⟨fun hT => ?_, fun hT => ?_, fun hT => ?_⟩
  · have hT' : (1 : ℚ) ≤ T := by exact_mod_cast hT
    rw [F64.truncQ, if_pos (by linarith [h'.1])]
    have h1 : T - 1 ≤ ⌊p⌋ := Int.le_floor.2 (by push_cast; linarith [h'.1])
    have h2 : ⌊p⌋ < T + 1 := Int.floor_lt.2 (by push_cast; linarith [h'.2])
    omega
  · have hT' : (T : ℚ) ≤ -1 := by
      have : T ≤ -1 := by omega
      exact_mod_cast this
    rw [F64.truncQ, if_neg (by linarith [h'.2])]
    have h1 : T - 1 < ⌈p⌉ := Int.lt_ceil.2 (by push_cast; linarith [h'.1])
    have h2 : ⌈p⌉ ≤ T + 1 := Int.ceil_le.2 (by push_cast; linarith [h'.2])
    omega
  · subst hT
    norm_num at h'
    unfold F64.truncQ
    split
    · have h1 : 0 ≤ ⌊p⌋ := Int.floor_nonneg.2 (by assumption)
      have h2 : ⌊p⌋ < 1 := Int.floor_lt.2 (by push_cast; linarith [h'.2])
      omega
    · have h1 : -1 < ⌈p⌉ := Int.lt_ceil.2 (by push_cast; linarith [h'.1])
      have h2 : ⌈p⌉ ≤ 0 := Int.ceil_le.2 (by push_cast; linarith)
      omega

theorem isFloat_1024 {k : ℤ} (h : |k| ≤ 2 ^ 52) : IsFloat ((k : ℚ) / 1024) :=
  ⟨k, -10, lt_of_le_of_lt h (by norm_num), by norm_num, by norm_num [div_eq_mul_inv]⟩

/-- Multiples of 84.375 s (1/1024 day) survive exactly. -/
theorem f8ms_roundtrip_1024 {k : ℤ} (h0 : -26121000 ≤ k) (h1 : k < 3003286528) :
    f8ToMsWin (rnd (((k * 84375 : ℤ) : ℚ) / 86400000 + 25569)) = k * 84375 := by
  have hk0 : (-26121000 : ℚ) ≤ k := by exact_mod_cast h0
  have hk1 : (k : ℚ) < 3003286528 := by exact_mod_cast h1
  have e : (((k * 84375 : ℤ) : ℚ) / 86400000 + 25569) = (((k + 25569 * 1024 : ℤ) : ℚ) / 1024) := by
    push_cast; ring
  have hf : IsFloat (((k + 25569 * 1024 : ℤ) : ℚ) / 1024) :=
    isFloat_1024 (by rw [abs_le]; constructor <;> omega)
  have hlt : |(((k + 25569 * 1024 : ℤ) : ℚ) / 1024)| < (2 : ℚ) ^ (22 : ℤ) := by
    push_cast
    rw [abs_of_nonneg (by linarith)]
    linarith
  have hge : (60 : ℚ) ≤ (((k + 25569 * 1024 : ℤ) : ℚ) / 1024) := by push_cast; linarith
  have ho : serialOffset (((k + 25569 * 1024 : ℤ) : ℚ) / 1024) = 25569 := by
    unfold serialOffset; rw [if_neg (by linarith), if_neg (by linarith)]
  have e2 : (((k + 25569 * 1024 : ℤ) : ℚ) / 1024) - 25569 = (k : ℚ) / 1024 := by push_cast; ring
  rw [e, rnd_small hlt (by norm_num), rndQ_exact hf, f8ToMsWin_eq, ho, e2]
  have hf2 : IsFloat ((k : ℚ) / 1024) := isFloat_1024 (by rw [abs_le]; constructor <;> omega)
  have hlt2 : |((k : ℚ) / 1024)| < (2 : ℚ) ^ (22 : ℤ) := by
    rw [abs_lt]; norm_num; constructor <;> linarith
  rw [rnd_small hlt2 (by norm_num), rndQ_exact hf2]
  simp only [F64.mul]
  have h3 : |k * 84375| ≤ 2 ^ 53 := by rw [abs_le]; constructor <;> omega
  rw [show ((k : ℚ) / 1024 * 86400000) = ((k * 84375 : ℤ) : ℚ) by push_cast; ring, rnd_int h3,
    toI64_int (lt_of_le_of_lt h3 (by norm_num))]

theorem wrap64_small {n : ℤ} (h : |n| < 2 ^ 63) : wrap64 n = n := by
  have := abs_lt.1 h
  unfold wrap64
  rw [BitVec.toInt_ofInt]
  apply Int.bmod_eq_of_le <;> omega

theorem msToF8_days {k : ℤ} (h : |k| ≤ 11000000) : msToF8Win (k * 86400000) =
    .fin (if 1 ≤ k then k + 25569 else k : ℤ) := by
  have h' := abs_le.1 h
  unfold msToF8Win
  dsimp only
  by_cases hk : 1 ≤ k
  · have e : k * 86400000 + (if (86400000 : ℤ) ≤ k * 86400000 then 1 else 0) *
        (2209075200000 + (if (-2203891200000 : ℤ) ≤ k * 86400000 then 1 else 0) * 86400000) =
        (k + 25569) * 86400000 := by
      rw [if_pos (by omega), if_pos (by omega)]; ring
    rw [e, if_pos hk, wrap64_small (by rw [abs_lt]; constructor <;> omega),
      ofInt_small (by rw [abs_le]; constructor <;> omega), ofInt_small (by norm_num)]
    simp only [F64.div]
    rw [if_neg (by norm_num), show ((((k + 25569) * 86400000 : ℤ) : ℚ) / ((86400000 : ℤ) : ℚ)) =
      ((k + 25569 : ℤ) : ℚ) by push_cast; ring]
    exact rnd_int (by rw [abs_le]; constructor <;> omega)
  · have e : k * 86400000 + (if (86400000 : ℤ) ≤ k * 86400000 then 1 else 0) *
        (2209075200000 + (if (-2203891200000 : ℤ) ≤ k * 86400000 then 1 else 0) * 86400000) =
        k * 86400000 := by
      rw [if_neg (by omega)]; ring
    rw [e, if_neg hk, wrap64_small (by rw [abs_lt]; constructor <;> omega),
      ofInt_small (by rw [abs_le]; constructor <;> omega), ofInt_small (by norm_num)]
    simp only [F64.div]
    rw [if_neg (by norm_num), show (((k * 86400000 : ℤ) : ℚ) / ((86400000 : ℤ) : ℚ)) =
      ((k : ℤ) : ℚ) by push_cast; ring]
    exact rnd_int (by rw [abs_le]; constructor <;> omega)

end Rxls
