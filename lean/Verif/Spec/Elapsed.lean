import Verif.Spec.Format

/-!
# Elapsed time in number format codes

ECMA-376 part 1, 18.8.31: `[h]`, `[m]`, `[s]` show elapsed hours, minutes, seconds.  Letters may be repeated for leading
zeros, and codes are not case-sensitive.
-/

namespace Rxls

/-- The content of a bracketed section that stands for elapsed time. -/
def isElapsed (s : Str) : Bool :=
  !s.isEmpty && (s.all (['h', 'H'].contains ·) || s.all (['m', 'M'].contains ·) || s.all (['s', 'S'].contains ·))

/-- The characters of a code outside quoted literals, escapes and all bracketed sections. -/
def bare : FmtMode → Str → Str
  | _, [] => []
  | .normal, c :: s =>
    if c = '\\' then bare .escaped s
    else if c = '"' ∧ '"' ∈ s then bare .quoted s
    else if c = '[' ∧ ']' ∈ s then bare .bracketed s
    else c :: bare .normal s
  | .escaped, _ :: s => bare .normal s
  | .quoted, c :: s => if c = '"' then bare .normal s else bare .quoted s
  | .bracketed, c :: s => if c = ']' then bare .normal s else bare .bracketed s

/-- The contents of the bracketed sections. -/
def sections : FmtMode → Str → List Str
  | _, [] => []
  | .normal, c :: s =>
    if c = '\\' then sections .escaped s
    else if c = '"' ∧ '"' ∈ s then sections .quoted s
    else if c = '[' ∧ ']' ∈ s then s.takeWhile (· ≠ ']') :: sections .bracketed s
    else sections .normal s
  | .escaped, _ :: s => sections .normal s
  | .quoted, c :: s => if c = '"' then sections .normal s else sections .quoted s
  | .bracketed, c :: s => if c = ']' then sections .normal s else sections .bracketed s

/-- The code has a date or time field outside brackets. -/
def bareDate (fmt : Str) : Prop := ∃ c ∈ bare .normal fmt, c ∈ dateLetters

/-- The code shows a date, a time or an elapsed time. -/
def showsMoment (fmt : Str) : Prop := bareDate fmt ∨ ∃ x ∈ sections .normal fmt, isElapsed x = true

instance (fmt : Str) : Decidable (bareDate fmt) := by unfold bareDate; infer_instance
instance (fmt : Str) : Decidable (showsMoment fmt) := by unfold showsMoment; infer_instance

end Rxls
