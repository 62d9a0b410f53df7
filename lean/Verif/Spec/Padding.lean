import Verif.Spec.Format

/-!
# Padding in number format codes

ECMA-376 part 1, 18.8.31: `_` leaves a space as wide as the next character, `*` repeats the next character to fill the
column.  Neither shows a field.
-/

namespace Rxls

/-- As `visible`, and without the characters that only pad. -/
def fields : FmtMode → Str → Str
  | _, [] => []
  | .normal, c :: s =>
    if c = '\\' ∨ c = '_' ∨ c = '*' then fields .escaped s
    else if c = '"' ∧ '"' ∈ s then fields .quoted s
    else if c = '[' ∧ ']' ∈ s ∧ s.takeWhile (· ≠ ']') ∉ clockNames then fields .bracketed s
    else c :: fields .normal s
  | .escaped, _ :: s => fields .normal s
  | .quoted, c :: s => if c = '"' then fields .normal s else fields .quoted s
  | .bracketed, c :: s => if c = ']' then fields .normal s else fields .bracketed s

/-- The code has a date or time field. -/
def hasDateField (fmt : Str) : Prop := ∃ c ∈ fields .normal fmt, c ∈ dateLetters

instance (fmt : Str) : Decidable (hasDateField fmt) := by unfold hasDateField; infer_instance

/-- Padding only as wide as characters that are not themselves special to the format syntax. -/
def PlainPadding (fmt : Str) : Prop :=
  fmt.IsChain fun a b => a = '_' ∨ a = '*' → b ∉ ['"', '[', '\\', '_', '*']

instance (fmt : Str) : Decidable (PlainPadding fmt) := by unfold PlainPadding; infer_instance

/-- No padding as wide as the letter of a date field. -/
def NoDatePadding (fmt : Str) : Prop :=
  fmt.IsChain fun a b => a = '_' ∨ a = '*' → b ∉ dateLetters

instance (fmt : Str) : Decidable (NoDatePadding fmt) := by unfold NoDatePadding; infer_instance

end Rxls
