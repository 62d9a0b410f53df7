import Verif.Spec.Xlsx
import Verif.Spec.Sheet

/-! # Rows and the columns that are left out -/

namespace Rxls

/-- A row has a value in a column that is not left out: a text that is neither blank nor null. -/
def XRow.hasValue (isNull : Str → Bool) (cols : List Int) (r : XRow) : Bool :=
  r.cells.any fun c => decide (c.col ∉ cols) &&
    (valueTexts tagC c.body).any fun t => decide (pyStrip t ≠ []) && !isNull (pyStrip t)

/-- The number of rows before the first one with a value. -/
def XSheet.rowsBefore (isNull : Str → Bool) (cols : List Int) (k : Nat) (s : XSheet) : Nat :=
  ((s.rows.drop k).takeWhile fun r => !r.hasValue isNull cols).length

/-- The first row with a value, of those that are asked for, keeps one: leaving the columns out does not move it. -/
def XSheet.FirstStays (isNull : Str → Bool) (cols : List Int) (k : Nat) (s : XSheet) : Prop :=
  s.rowsBefore isNull cols k = s.rowsBefore isNull [] k

/-- No row loses its last value. -/
def RowsStay (cols : List Int) (L : List (List Item)) : Prop := ∀ is ∈ L, is ≠ [] → ∃ i ∈ is, i.1 ∉ cols

end Rxls
