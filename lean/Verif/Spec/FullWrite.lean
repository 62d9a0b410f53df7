import Verif.Spec.History
import Verif.Spec.TwoFormats

/-! # What written workbooks hold, cells with their kinds -/

namespace Rxls

/-- The shared strings of an XLSX workbook as they are read: without surrounding white space; those that are blank or null
have no text. -/
def WBook.strings (isNull : Str → Bool) (b : WBook) : List (Option Str) :=
  b.shared.map fun s => if pyStrip s = [] ∨ isNull (pyStrip s) = true then none else some (pyStrip s)

/-- A cell of an XLSX workbook that can be read, as in `WCell.Ok`, but the number of a shared string may count as null. -/
structure WCell.Readable (env : Env) (isNull : Str → Bool) (b : WBook) (c : WCell) : Prop where
  text : TextOk c.content.text
  style : c.style.getD 0 < b.formats.length
  index : ∀ i, c.content = .shared i → i < b.shared.length ∧ i < 2 ^ 32 ∧ env.pyInt (pyStr i) = some i
  number : ∀ s, c.content = .plain s → b.classes.getD (c.style.getD 0) .other ≠ .other →
    (env.pyFloat (pyStrip s)).isSome ∨ pyStrip s = [] ∨ isNull (pyStrip s) = true

/-- An XLSX workbook that can be read, as in `WBook.Ok`, but shared strings may be blank or null. -/
structure WBook.Readable (toInt : Str → Option Int) (b : WBook) : Prop where
  names : (b.sheets.map (·.1)).Nodup
  name : ∀ s ∈ b.sheets, Chars s.1
  shared : ∀ s ∈ b.shared, TextOk s
  codes : (b.codes.map (·.1)).Nodup
  code : ∀ p ∈ b.codes, Chars p.2
  ints : ∀ n ∈ b.formats, toInt (pyStr n) = some (n : Int)

/-- The cells of a sheet of an XLSX workbook. -/
def WBook.held (env : Env) (isNull : Str → Bool) (b : WBook) (rows : List (List WCell)) : HGrid :=
  (gridOf rows).held env isNull b.classes (b.strings isNull)

/-- The cells of a sheet of an XLSB workbook but those with a null text of their own. -/
def BBook.held (isNull : Str → Bool) (b : BBook) (rows : List (List BCell)) : HGrid :=
  rows.map fun row => (row.filter fun c => !c.blank isNull).map fun c =>
    ((c.col : Int), c.content.tag (b.dated c.style), some (b.value c))

/-- The cells of a sheet of a workbook for both formats; kinds are shared string (0x11), date (0x24), number (0x20). -/
def DBook.held (b : DBook) (rows : List (List DCell)) : HGrid :=
  rows.map fun row => row.map fun c => ((c.col : Int), (match c.content with
    | .shared _ => 0x11
    | .number _ _ => if b.dated c.style then 0x24 else 0x20), some (b.value c))

end Rxls
