import Verif.Spec.XlsbWrite
import Verif.Spec.NumText
import Verif.Spec.F64

/-! # One workbook, to be saved in either format -/

namespace Rxls

/-- Content of a cell: a number or date, as the bits of a binary64 number and as the decimal number that stands for it in
XLSX; or the number of a shared string. -/
inductive DContent where
  | number (bits : Nat) (decimal : Decimal)
  | shared (i : Nat)

/-- A cell: column, cell format, content. -/
structure DCell where
  col : Nat
  style : Nat
  content : DContent

/-- A workbook: sheets (name and rows), shared strings, the number format of every cell format, custom number formats. -/
structure DBook where
  sheets : List (Str × List (List DCell))
  shared : List Str
  formats : List Nat
  codes : List (Nat × Str) := []

/-- The cell and the workbook as XLSX. -/
def DCell.xlsx (c : DCell) : WCell := ⟨c.col, some c.style, match c.content with
  | .number _ d => .plain d.text
  | .shared i => .shared i⟩
@[inherit_doc DCell.xlsx] def DBook.xlsx (b : DBook) : WBook :=
  ⟨b.sheets.map fun s => (s.1, s.2.map (List.map DCell.xlsx)), b.shared, b.formats, b.codes⟩

/-- The cell and the workbook as XLSB. -/
def DCell.xlsb (c : DCell) : BCell := ⟨c.col, c.style, match c.content with
  | .number w _ => .real w
  | .shared i => .shared i⟩
@[inherit_doc DCell.xlsb] def DBook.xlsb (b : DBook) : BBook :=
  ⟨b.sheets.map fun s => (s.1, s.2.map (List.map DCell.xlsb)), b.shared, b.formats, b.codes⟩

/-- A cell format shows a date: a built-in one, or a custom one whose code does. -/
def DBook.dated (b : DBook) (style : Nat) : Bool := b.xlsb.dated style

/-- The value of a cell. -/
def DBook.value (b : DBook) (c : DCell) : Val :=
  match c.content with
  | .number w _ => if b.dated c.style then .ts (f8ToMsWin (F64.ofBits w)) else .f8 (F64.ofBits w)
  | .shared i => .str (b.shared.getD i [])

/-- The values of a sheet. -/
def DBook.values (b : DBook) (rows : List (List DCell)) : VGrid :=
  rows.map fun row => row.map fun c => ((c.col : Int), b.value c)

/-- No cell of a column is a shared string. -/
def noShared (rows : List (List DCell)) (k : Int) : Bool :=
  rows.all fun row => row.all fun c => match c.content with
    | .shared _ => decide ((c.col : Int) ≠ k)
    | .number _ _ => true

/-- The sheet asked for. -/
def DBook.Selects (b : DBook) (arg : SheetArg) (name : Str) (rows : List (List DCell)) : Prop :=
  ∃ i : Nat, b.sheets[i]? = some (name, rows) ∧ (arg = .index i ∨ arg = .name name)

/-- A cell both formats can hold.  A number is finite, its decimal number has 17 significant digits or more, and its cell
format is a number format or a date format that both readers know as such (XLSX takes numbers of other cell formats for
texts, C50).  What stands for the cell in XLSX does not count as null. -/
structure DCell.Ok (isNull : Str → Bool) (b : DBook) (c : DCell) : Prop where
  col : c.col < 2 ^ 32
  style : c.style < b.formats.length
  content : match c.content with
    | .number w d => w < 2 ^ 64 ∧ (∃ x, F64.ofBits w = .fin x ∧ |d.value - x| ≤ |x| / (2 * 10 ^ 16)) ∧ d.Ok ∧
        d.text.length ≤ 8192 ∧ isNull d.text = false ∧
        b.xlsx.classes.getD c.style .other = if b.dated c.style then .temporal else .numeric
    | .shared i => i < b.shared.length ∧ isNull (pyStr i) = false

/-- A workbook both formats can hold.  Shared strings have no surrounding white space and do not count as null. -/
structure DBook.Ok (isNull : Str → Bool) (b : DBook) : Prop where
  names : (b.sheets.map (·.1)).Nodup
  name : ∀ s ∈ b.sheets, Chars s.1 ∧ WideOk s.1
  count : b.sheets.length < 2 ^ 32 - 1 ∧ b.shared.length ≤ 2 ^ 32 ∧ b.formats.length < 2 ^ 16
  shared : ∀ s ∈ b.shared, TextOk s ∧ WideOk s ∧ pyStrip s = s ∧ isNull s = false
  formats : ∀ n ∈ b.formats, n < 256
  codes : (b.codes.map (·.1)).Nodup
  code : ∀ p ∈ b.codes, Chars p.2 ∧ p.1 < 256 ∧ (utf16 p.2).length < 0xD800 ∧
    Char.ofNat (utf16 p.2).length ∉ '"' :: '[' :: ';' :: dateLetters ∧ '\n' ∉ p.2 ∧ PlainEscapes (beforeSemicolon p.2)
  cells : ∀ s ∈ b.sheets, ∀ row ∈ s.2, ∀ c ∈ row, c.Ok isNull b

end Rxls
