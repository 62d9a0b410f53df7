import Verif.Lemmas.NumFmt

/-! # Property C49: date detection in number format codes -/

namespace Rxls

/-- C49, partial: for codes without a line feed in which a backslash never precedes a quote, a bracket or another
backslash, the code is taken as temporal exactly when it shows a date or time field.  Missing: those other codes,
where it fails (below). -/
theorem C49_detection_partial (fmt : Str) (hn : '\n' ∉ fmt) (hp : PlainEscapes fmt) :
    fmtTemporal fmt = true ↔ showsDate fmt :=
  fmtTemporal_iff fmt hn hp

example : ∃ fmt : Str, fmt = "[$-409]\\d\"day\"[h]:0".toList ∧ '\n' ∉ fmt ∧ PlainEscapes fmt ∧ showsDate fmt ∧
    fmtTemporal fmt = true := ⟨_, rfl, by decide +kernel⟩

example : ∃ fmt : Str, fmt = "[Red]\"days\"\\d0.0".toList ∧ '\n' ∉ fmt ∧ PlainEscapes fmt ∧ ¬ showsDate fmt ∧
    fmtTemporal fmt = false := ⟨_, rfl, by decide +kernel⟩

/-- Finding: the regular expressions know no escaped backslash (`\\d` shows a backslash and the day), no escaped
quote (`\"d\"` shows a day between quotes) and no literal with a line break. -/
theorem C49_escape_findings :
    (showsDate ['\\', '\\', 'd'] ∧ fmtTemporal ['\\', '\\', 'd'] = false) ∧
    (showsDate ['\\', '"', 'd', '\\', '"'] ∧ fmtTemporal ['\\', '"', 'd', '\\', '"'] = false) ∧
    (¬ showsDate ['"', '\n', 'd', '"', '0'] ∧ fmtTemporal ['"', '\n', 'd', '"', '0'] = true) := by
  decide +kernel

/-- Finding: only the part before the first semicolon is looked at, even when that semicolon is in a literal. -/
theorem C49_semicolon_in_literal :
    showsDate ['"', ';', '"', 'd'] ∧ fmtTemporal (beforeSemicolon ['"', ';', '"', 'd']) = false := by
  decide +kernel

/-! ## The built-in formats (used by C50 and C51) -/

/-- C50, C51: the built-in formats taken for dates are exactly those of the standard whose code shows a date. -/
theorem C50_builtin_dates (n : Nat) :
    n ∈ temporalStyles ↔ ∃ code, (n, code) ∈ builtinFormats ∧ showsDate code.toList := by
  have h1 : ∀ n ∈ temporalStyles, ∃ p ∈ builtinFormats, p.1 = n ∧ showsDate p.2.toList := by decide +kernel
  have h2 : ∀ p ∈ builtinFormats, showsDate p.2.toList → p.1 ∈ temporalStyles := by decide +kernel
  refine ⟨fun h => ?_, fun ⟨c, hc, hs⟩ => h2 _ hc hs⟩
  obtain ⟨⟨m, c⟩, hc, rfl, hs⟩ := h1 n h
  exact ⟨c, hc, hs⟩

/-- Finding, C50: of the built-in formats that show a number, percentages, fractions and the two-decimal scientific
format are not taken for numbers; neither is `General`.  The others are. -/
theorem C50_builtin_numbers (n : Nat) :
    n ∈ numericStyles ↔ n ∉ [9, 10, 11, 12, 13] ∧
      ∃ code, (n, code) ∈ builtinFormats ∧ showsDigit code.toList ∧ ¬ showsDate code.toList := by
  have h1 : ∀ n ∈ numericStyles, n ∉ [9, 10, 11, 12, 13] ∧
      ∃ p ∈ builtinFormats, p.1 = n ∧ showsDigit p.2.toList ∧ ¬ showsDate p.2.toList := by decide +kernel
  have h2 : ∀ p ∈ builtinFormats, p.1 ∉ [9, 10, 11, 12, 13] → showsDigit p.2.toList → ¬ showsDate p.2.toList →
      p.1 ∈ numericStyles := by decide +kernel
  refine ⟨fun h => ?_, fun ⟨hn, c, hc, hd, hs⟩ => h2 _ hc hn hd hs⟩
  obtain ⟨hn, ⟨m, c⟩, hc, rfl, hs⟩ := h1 n h
  exact ⟨hn, c, hc, hs⟩

example : 47 ∈ temporalStyles ∧ 48 ∉ temporalStyles ∧ 48 ∈ numericStyles ∧ 10 ∉ numericStyles := by decide

end Rxls
