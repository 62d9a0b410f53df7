import Verif.Model.ArrowRender
import Verif.Lemmas.DateText

/-! # Lemmas: dates from day counts -/

namespace Rxls

/-- First day of a year of the era. -/
def eraStart (y : Nat) : Nat := 365 * y + y / 4 - y / 100

theorem yearOfEra_mono {a b : Nat} (h : a ≤ b) : yearOfEra a ≤ yearOfEra b := by
  induction h with
  | refl => exact le_refl _
  | step h ih =>
    refine le_trans ih ?_
    rename_i m
    unfold yearOfEra
    apply Nat.div_le_div_right
    show _ ≤ m + 1 - (m + 1) / 1460 + (m + 1) / 36524 - (m + 1) / 146096
    omega

theorem yearOfEra_ends : ∀ y < 400, yearOfEra (eraStart y) = y ∧
    yearOfEra (eraStart y + (if (y + 1) % 4 = 0 ∧ ((y + 1) % 100 ≠ 0 ∨ y = 399) then 365 else 364)) = y := by
  decide +kernel

theorem yearOfEra_eq {y k : Nat} (hy : y < 400)
    (hk : k ≤ if (y + 1) % 4 = 0 ∧ ((y + 1) % 100 ≠ 0 ∨ y = 399) then 365 else 364) :
    yearOfEra (eraStart y + k) = y := by
  obtain ⟨h1, h2⟩ := yearOfEra_ends y hy
  refine le_antisymm ?_ ?_
  · conv_rhs => rw [← h2]
    exact yearOfEra_mono (by omega)
  · conv_lhs => rw [← h1]
    exact yearOfEra_mono (by omega)

theorem civilFromDays_core {era : Int} {yoe mp d : Nat} (hy : yoe < 400) (hm : mp < 12) (h1 : 1 ≤ d)
    (h2 : d ≤ if mp = 11 then (if (yoe + 1) % 4 = 0 ∧ ((yoe + 1) % 100 ≠ 0 ∨ yoe = 399) then 29 else 28)
      else if mp = 1 ∨ mp = 3 ∨ mp = 6 ∨ mp = 8 then 30 else 31) :
    civilFromDays (era * 146097 + ((eraStart yoe + ((153 * mp + 2) / 5 + d - 1) : Nat) : Int) - 719468) =
      (if mp < 10 then (yoe : Int) + era * 400 else yoe + era * 400 + 1, if mp < 10 then mp + 3 else mp - 9, d) := by
  have hb : (153 * mp + 2) / 5 + d - 1 ≤ if (yoe + 1) % 4 = 0 ∧ ((yoe + 1) % 100 ≠ 0 ∨ yoe = 399) then 365 else 364 := by
    split at h2
    · split at h2
      · rename_i h; rw [if_pos h]; omega
      · rename_i h; rw [if_neg h]; omega
    · split <;> split at h2 <;> omega
  have hstart : eraStart yoe + ((153 * mp + 2) / 5 + d - 1) < 146097 := by
    unfold eraStart
    split at hb <;> omega
  have he := yearOfEra_eq hy hb
  generalize hdoy : (153 * mp + 2) / 5 + d - 1 = doy at *
  have hera : (era * 146097 + ((eraStart yoe + doy : Nat) : Int) - 719468 + 719468) / 146097 = era := by omega
  have hdoe : (era * 146097 + ((eraStart yoe + doy : Nat) : Int) - 719468 + 719468 - era * 146097).toNat =
      eraStart yoe + doy := by omega
  have hmp : (5 * doy + 2) / 153 = mp := by
    clear hera hdoe he hb hstart
    interval_cases mp <;> norm_num at h2 <;> first | omega | (split at h2 <;> omega)
  unfold civilFromDays
  simp only [hera, hdoe, he]
  rw [show eraStart yoe + doy - (365 * yoe + yoe / 4 - yoe / 100) = doy by unfold eraStart; omega, hmp]
  refine Prod.ext ?_ (Prod.ext rfl ?_)
  · simp only
    by_cases h : mp < 10
    · rw [if_pos h, if_pos h, if_neg (by omega)]
    · rw [if_neg h, if_neg h, if_pos (by omega)]
  · simp only; omega

/-- The date of a day count, for real dates. -/
theorem civilFromDays_eq {y m d : Nat} (h : (⟨y, m, d⟩ : Date).Real) :
    civilFromDays (daysFromCivil y m d) = ((y : Int), m, d) := by
  obtain ⟨h1, h2, h3, h4⟩ := h
  simp only at h1 h2 h3 h4
  have hl : leapYear y = true ↔ (y % 4 = 0 ∧ y % 100 ≠ 0) ∨ y % 400 = 0 := by
    simp [leapYear]
  by_cases hm : m ≤ 2
  · have hc := civilFromDays_core (era := ((y : Int) - 1) / 400) (yoe := (((y : Int) - 1) % 400).toNat) (mp := m + 9) (d := d)
      (by omega) (by omega) h3 (by
        unfold daysInMonth at h4
        by_cases e : m = 2
        · subst e
          rw [if_pos rfl] at h4 ⊢
          by_cases l : leapYear y = true
          · rw [if_pos l] at h4
            rw [hl] at l
            rw [if_pos (by omega)]; exact h4
          · rw [if_neg l] at h4
            split <;> omega
        · have : m = 1 := by omega
          subst this
          simpa using h4)
    rw [if_neg (by omega), if_neg (by omega)] at hc
    rw [show daysFromCivil y m d = ((y : Int) - 1) / 400 * 146097 +
        ((eraStart (((y : Int) - 1) % 400).toNat + ((153 * (m + 9) + 2) / 5 + d - 1) : Nat) : Int) - 719468 by
      unfold daysFromCivil eraStart; simp only [if_pos hm]; omega, hc]
    refine Prod.ext ?_ (Prod.ext ?_ rfl) <;> simp only <;> omega
  · have hc := civilFromDays_core (era := (y : Int) / 400) (yoe := ((y : Int) % 400).toNat) (mp := m - 3) (d := d)
      (by omega) (by omega) h3 (by
        unfold daysInMonth at h4
        rw [if_neg (by omega)] at h4
        rw [if_neg (by omega)]
        split at h4
        · rw [if_pos (by omega)]; exact h4
        · split <;> omega)
    rw [if_pos (by omega), if_pos (by omega)] at hc
    rw [show daysFromCivil y m d = (y : Int) / 400 * 146097 +
        ((eraStart ((y : Int) % 400).toNat + ((153 * (m - 3) + 2) / 5 + d - 1) : Nat) : Int) - 719468 by
      unfold daysFromCivil eraStart; simp only [if_neg hm]; omega, hc]
    refine Prod.ext ?_ (Prod.ext ?_ rfl) <;> simp only <;> omega

end Rxls
