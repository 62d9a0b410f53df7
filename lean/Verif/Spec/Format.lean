import Verif.Model.NumFmt
import Mathlib.Data.List.Chain

/-!
# Reference semantics of number format codes
-/

namespace Rxls

/-- Where we are in a format code. -/
inductive FmtMode where
  | normal
  | escaped     -- after a backslash
  | quoted      -- inside a quoted literal
  | bracketed   -- inside a bracketed section that is no elapsed-time section

/-- The sections that stand for elapsed time. -/
def clockNames : List Str := [['h'], ['h', 'h'], ['m'], ['m', 'm'], ['s'], ['s', 's']]

/-- The characters of a code outside quoted literals, bracketed sections (other than elapsed time) and escapes. A
quote or bracket that is never closed stands for itself. -/
def visible : FmtMode → Str → Str
  | _, [] => []
  | .normal, c :: s =>
    if c = '\\' then visible .escaped s
    else if c = '"' ∧ '"' ∈ s then visible .quoted s
    else if c = '[' ∧ ']' ∈ s ∧ s.takeWhile (· ≠ ']') ∉ clockNames then visible .bracketed s
    else c :: visible .normal s
  | .escaped, _ :: s => visible .normal s
  | .quoted, c :: s => if c = '"' then visible .normal s else visible .quoted s
  | .bracketed, c :: s => if c = ']' then visible .normal s else visible .bracketed s

/-- The letters of date and time fields. -/
def dateLetters : List Char := ['d', 'm', 'h', 'y', 's', 'D', 'M', 'H', 'Y', 'S']

/-- The code shows a date or a time. -/
def showsDate (fmt : Str) : Prop := ∃ c ∈ visible .normal fmt, c ∈ dateLetters

instance (fmt : Str) : Decidable (showsDate fmt) := by unfold showsDate; infer_instance

/-- Escapes used only for characters that are not themselves special to the format syntax. -/
def PlainEscapes (fmt : Str) : Prop :=
  fmt.IsChain fun a b => a = '\\' → b ≠ '"' ∧ b ≠ '[' ∧ b ≠ '\\'

instance (fmt : Str) : Decidable (PlainEscapes fmt) := by unfold PlainEscapes; infer_instance

/-- The built-in number formats of ECMA-376 part 1, 18.8.30. -/
def builtinFormats : List (Nat × String) :=
  [(0, "General"), (1, "0"), (2, "0.00"), (3, "#,##0"), (4, "#,##0.00"), (9, "0%"), (10, "0.00%"), (11, "0.00E+00"),
   (12, "# ?/?"), (13, "# ??/??"), (14, "mm-dd-yy"), (15, "d-mmm-yy"), (16, "d-mmm"), (17, "mmm-yy"),
   (18, "h:mm AM/PM"), (19, "h:mm:ss AM/PM"), (20, "h:mm"), (21, "h:mm:ss"), (22, "m/d/yy h:mm"),
   (37, "#,##0 ;(#,##0)"), (38, "#,##0 ;[Red](#,##0)"), (39, "#,##0.00;(#,##0.00)"), (40, "#,##0.00;[Red](#,##0.00)"),
   (45, "mm:ss"), (46, "[h]:mm:ss"), (47, "mmss.0"), (48, "##0.0E+0"), (49, "@")]

/-- The code shows a digit. -/
def showsDigit (fmt : Str) : Prop := ∃ c ∈ visible .normal fmt, c ∈ ['0', '#', '?']

instance (fmt : Str) : Decidable (showsDigit fmt) := by unfold showsDigit; infer_instance

end Rxls
