import Verif.Spec.Values
import Verif.Spec.NumText
import Verif.Spec.DateText

/-! # What the cells of a mixed column mean -/

namespace Rxls

/-- Among numbers: a number means itself, a text the decimal number it writes (without a plus sign). -/
inductive MeansNumber : Val → Val → Prop where
  | number (x : F64) : MeansNumber (.f8 x) (.f8 x)
  | text (d : Decimal) : d.Ok → d.sign ≠ some false → MeansNumber (.str d.text) (.f8 (rnd d.value))

/-- Among moments: a moment means itself, a number is a serial number, a text means the moment it writes, if this is after
1970-01-01 00:00 and no time other than midnight follows a year of two digits (the ninth character is a space or T; the code
is wrong there, C80), except on 1970-01-01. -/
inductive MeansMoment : Val → Val → Prop where
  | moment (n : Int) : MeansMoment (.ts n) (.ts n)
  | serial (x : F64) : MeansMoment (.f8 x) (.ts (f8ToMsWin x))
  | text (s : Str) (v : Int) : WritesMoment s v → 0 < v →
      (s[8]? = some ' ' ∨ s[8]? = some 'T' → v % 86400000 = 0 ∨ v < 86400000) →
      MeansMoment (.str s) (.ts v)

/-- The column `l` means the column `m`: there is a number and no moment and every cell has a meaning among numbers; or there
is a moment, and every cell has a meaning among moments; or there are only texts, which mean themselves. -/
inductive ColumnMeans (l m : List (Option Val)) : Prop where
  | numbers : (∃ x, some (.f8 x) ∈ l) → List.Forall₂ (Option.Rel MeansNumber) l m → ColumnMeans l m
  | moments : (∃ n, some (.ts n) ∈ l) → List.Forall₂ (Option.Rel MeansMoment) l m → ColumnMeans l m
  | texts : (∀ v, some v ∈ l → ∃ s, v = .str s) → m = l → ColumnMeans l m

end Rxls
