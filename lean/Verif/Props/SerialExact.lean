import Verif.Props.Casts

/-!
# C19: which milliseconds come back
-/

namespace Rxls

/-- C19: when a timestamp after 1935 comes back.  `s` is the double nearest to its serial and `p` the double nearest to
the milliseconds that `s` stands for; the timestamp comes back exactly when `p` is not nearer to 1970 than the
timestamp is. -/
theorem C19_exact {T : ℤ} (h0 : -1104537600000 ≤ T) (h1 : T < 253402300800000) :
    ∃ s p : ℚ, rnd ((T : ℚ) / 86400000 + 25569) = .fin s ∧ rnd ((s - 25569) * 86400000) = .fin p ∧
      (0 < T → (f8ToMsWin (.fin s) = T ↔ (T : ℚ) ≤ p)) ∧ (T < 0 → (f8ToMsWin (.fin s) = T ↔ p ≤ T)) ∧
      (T = 0 → f8ToMsWin (.fin s) = 0) := by
  obtain ⟨s, hs, hf, hs0, hs1, he, hp⟩ := f8ms_roundtrip (by omega) h1
  have hT0 : (-1104537600000 : ℚ) ≤ T := by exact_mod_cast h0
  have hT1 : (T : ℚ) < 253402300800000 := by exact_mod_cast h1
  have ho : serialOffset s = 25569 := by
    unfold serialOffset; rw [if_neg (by linarith), if_neg (by linarith)]
  have hs2 : (12785 : ℚ) ≤ s := by
    have e : |(T : ℚ) / 86400000 + 25569| < (2 : ℚ) ^ (22 : ℤ) := by
      rw [abs_lt]; norm_num; constructor <;> linarith
    rw [rnd_small e (by norm_num)] at hs
    injection hs with hs
    rw [← hs]
    have h2 := rndQ_int (n := 12785) (by norm_num)
    rw [Int.cast_ofNat] at h2
    rw [← h2]
    exact rndQ_mono (by linarith)
  have hd : IsFloat (s - 25569) := by
    have := sub_exact hf (c := 25569) (by norm_num) (by push_cast; linarith) (by norm_num; linarith)
    simpa using this
  rw [ho, rndQ_exact hd] at he hp
  have he' := abs_lt.1 he
  refine ⟨s, rndQ ((s - 25569) * 86400000), hs, ?_, ?_, ?_, ?_⟩
  · have e : |(s - 25569) * 86400000| < (2 : ℚ) ^ (48 : ℤ) := by
      rw [abs_lt]; norm_num; constructor <;> linarith
    exact rnd_small e (by norm_num)
  · intro hT
    have hT' : (1 : ℚ) ≤ T := by exact_mod_cast hT
    rw [hp, F64.truncQ, if_pos (by linarith [he'.1])]
    constructor
    · intro e
      rw [← e]; exact Int.floor_le _
    · intro e
      refine Int.floor_eq_iff.2 ⟨e, by linarith [he'.2]⟩
  · intro hT
    have hT' : (T : ℚ) ≤ -1 := by
      have : T ≤ -1 := by omega
      exact_mod_cast this
    rw [hp, F64.truncQ, if_neg (by linarith [he'.2])]
    constructor
    · intro e
      rw [← e]; exact Int.le_ceil _
    · intro e
      refine Int.ceil_eq_iff.2 ⟨by linarith [he'.1], e⟩
  · intro hT
    rw [hp]
    exact (truncQ_close he).2.2 hT

/-- C19: a timestamp after 1935 whose serial was not rounded towards 1970 comes back. -/
theorem C19_rounded_away {T : ℤ} (h0 : -1104537600000 ≤ T) (h1 : T < 253402300800000) {s : ℚ}
    (hs : rnd ((T : ℚ) / 86400000 + 25569) = .fin s)
    (h : (0 ≤ T ∧ (T : ℚ) / 86400000 + 25569 ≤ s) ∨ (T ≤ 0 ∧ s ≤ (T : ℚ) / 86400000 + 25569)) :
    f8ToMsWin (.fin s) = T := by
  obtain ⟨s', p, hs', hp, hpos, hneg, hz⟩ := C19_exact h0 h1
  rw [hs] at hs'
  injection hs' with hs'
  subst hs'
  have hT0 : (-1104537600000 : ℚ) ≤ T := by exact_mod_cast h0
  have hT1 : (T : ℚ) < 253402300800000 := by exact_mod_cast h1
  have hT := rndQ_int (n := T) (by rw [abs_le]; constructor <;> omega)
  have hp' : rndQ ((s - 25569) * 86400000) = p := by
    unfold rnd at hp
    split at hp
    · injection hp
    · cases hp
  rcases lt_trichotomy T 0 with hlt | heq | hgt
  · refine (hneg hlt).2 ?_
    rcases h with h | h
    · omega
    · rw [← hp', ← hT]
      exact rndQ_mono (by linarith [h.2])
  · rw [hz heq, heq]
  · refine (hpos hgt).2 ?_
    rcases h with h | h
    · rw [← hp', ← hT]
      exact rndQ_mono (by linarith [h.2])
    · omega

/-- The three cases, on 2024-01-01: 00:02:00 is rounded down and lost, 00:03:00 is rounded down and comes back, 00:01:00
is rounded up and comes back. -/
example : (∃ s, rnd ((1704067320000 : ℚ) / 86400000 + 25569) = .fin s ∧
      s < (1704067320000 : ℚ) / 86400000 + 25569 ∧ f8ToMsWin (.fin s) = 1704067320000 - 1) ∧
    (∃ s, rnd ((1704067380000 : ℚ) / 86400000 + 25569) = .fin s ∧
      s < (1704067380000 : ℚ) / 86400000 + 25569 ∧ f8ToMsWin (.fin s) = 1704067380000) ∧
    (∃ s, rnd ((1704067260000 : ℚ) / 86400000 + 25569) = .fin s ∧
      (1704067260000 : ℚ) / 86400000 + 25569 ≤ s ∧ f8ToMsWin (.fin s) = 1704067260000) := by
  refine ⟨⟨rndQ ((1704067320000 : ℚ) / 86400000 + 25569), ?_, ?_, ?_⟩,
    ⟨rndQ ((1704067380000 : ℚ) / 86400000 + 25569), ?_, ?_, ?_⟩,
    ⟨rndQ ((1704067260000 : ℚ) / 86400000 + 25569), ?_, ?_, ?_⟩⟩ <;> decide +kernel

end Rxls
