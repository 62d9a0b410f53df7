import Verif.Spec.XlsxWrite
import Verif.Spec.Grid
import Verif.Spec.Format
import Verif.Spec.Biff

/-! # A reference writer of XLSB workbooks -/

namespace Rxls

/-- A cell as an application stores it: column, cell format, content. -/
structure BCell where
  col : Nat
  style : Nat := 0
  content : Content
  deriving DecidableEq

/-- A workbook: sheets (name and rows), shared strings, the number format of every cell format, custom number formats. -/
structure BBook where
  sheets : List (Str × List (List BCell))
  shared : List Str
  formats : List Nat
  codes : List (Nat × Str) := []

/-- A stream of records. -/
def binBytes (rs : List Record) : Bytes :=
  match writeAll rs [] with
  | .ok b => b
  | .error _ => []

/-- `worksheets/sheet1.bin`. -/
def sheetTargetB (i : Nat) : Str :=
  ['w', 'o', 'r', 'k', 's', 'h', 'e', 'e', 't', 's', '/', 's', 'h', 'e', 'e', 't'] ++ pyStr (i + 1) ++ ['.', 'b', 'i', 'n']

/-- The record of a cell. -/
def BCell.grid (c : BCell) : GCell := ⟨c.col, le16 c.style ++ [0], c.content, c.content.ids.headD 0, 0, []⟩

/-- The records of a sheet: BrtBeginSheet, BrtBeginSheetData, rows and cells, BrtEndSheetData, BrtEndSheet. -/
def binSheet (rows : List (List BCell)) : List Record :=
  [⟨385, []⟩, ⟨401, []⟩] ++ Grid.records (fun i => le32 i ++ List.replicate 13 0) (rows.map (List.map BCell.grid)) ++
    [⟨402, []⟩, ⟨386, []⟩]

/-- The bundle record of a sheet. -/
def BBook.bundles (b : BBook) : List SheetEntry := b.sheets.zipIdx.map fun p => ⟨0, p.2 + 1, relIdOf p.2, p.1.1⟩

/-- The cell formats: one style format, and those of the cells. -/
def BBook.xfs (b : BBook) : List Xf := ⟨0xFFFF, 0, List.replicate 12 0⟩ :: b.formats.map fun n => ⟨0, n, List.replicate 12 0⟩

/-- The records of the parts: between BrtBeginBook and BrtEndBook the sheets, between BrtBeginSst and BrtEndSst the
shared strings, the custom formats and the cell formats between their marks. -/
def BBook.workbookRecs (b : BBook) : List Record :=
  [⟨387, []⟩, ⟨399, []⟩] ++ b.bundles.map SheetEntry.record ++ [⟨400, []⟩, ⟨388, []⟩]
@[inherit_doc BBook.workbookRecs] def BBook.sharedRecs (b : BBook) : List Record :=
  [⟨415, le32 b.shared.length ++ le32 b.shared.length⟩] ++ b.shared.map (fun s => sstItem 0 s []) ++ [⟨416, []⟩]
@[inherit_doc BBook.workbookRecs] def BBook.stylesRecs (b : BBook) : List Record :=
  [⟨1255, le32 b.codes.length⟩] ++ b.codes.map fmtRecord ++ [⟨1256, []⟩, ⟨1257, le32 b.xfs.length⟩] ++ b.xfs.map Xf.record ++
    [⟨1258, []⟩]

/-- The relationships of the workbook. -/
def BBook.relsDoc (b : BBook) : List Xml :=
  elem tagRelationships [] (b.sheets.zipIdx.flatMap fun p =>
    elem tagRelationship [(attId, relIdOf p.2), (attType, worksheetUri), (attTarget, sheetTargetB p.2)] [])

/-- The entries of the archive. -/
def BBook.entries (b : BBook) : Archive :=
  [(xlsbRelsName, xmlBytes b.relsDoc), (workbookBin, binBytes b.workbookRecs), (xlsbStylesName, binBytes b.stylesRecs),
    (xlsbSharedName, binBytes b.sharedRecs)] ++
  b.sheets.zipIdx.map fun p => (xlPrefix ++ sheetTargetB p.2, binBytes (binSheet p.1.2))

/-- A cell format shows a date: a built-in one, or a custom one whose code does. -/
def BBook.dated (b : BBook) (style : Nat) : Bool :=
  match b.formats[style]? with
  | none => false
  | some n => decide (n ∈ temporalStyles) || b.codes.any fun p => decide (p.1 = n) && decide (showsDate (beforeSemicolon p.2))

/-- The value of a cell. -/
def BBook.value (b : BBook) (c : BCell) : Val :=
  match c.content with
  | .rk w => if b.dated c.style then .ts (f8ToMsWin (rkValue w)) else .f8 (rkValue w)
  | .real w => if b.dated c.style then .ts (f8ToMsWin (F64.ofBits w)) else .f8 (F64.ofBits w)
  | .bool x => .f8 (.fin (if x then 1 else 0))
  | .text s => .str s
  | .shared i => .str (b.shared.getD i [])

/-- The cell holds a text that counts as null. -/
def BCell.blank (isNull : Str → Bool) (c : BCell) : Bool :=
  match c.content with
  | .text s => isNull s
  | _ => false

/-- The values of a sheet. -/
def BBook.values (b : BBook) (isNull : Str → Bool) (rows : List (List BCell)) : VGrid :=
  rows.map fun row => (row.filter fun c => !c.blank isNull).map fun c => ((c.col : Int), b.value c)

/-- No cell of a column is a shared string. -/
def inlineOf (rows : List (List BCell)) (k : Int) : Bool :=
  rows.all fun row => row.all fun c => match c.content with
    | .shared _ => decide ((c.col : Int) ≠ k)
    | _ => true

/-- A text that fits in a record and has no byte order mark. -/
def WideOk (s : Str) : Prop := NoMark s ∧ (utf16 s).length < 2 ^ 20

/-- A cell that can be written, with a cell format and a shared string that exist. -/
structure BCell.Ok (b : BBook) (c : BCell) : Prop where
  col : c.col < 2 ^ 32
  style : c.style < b.formats.length
  content : match c.content with
    | .rk w => w < 2 ^ 32
    | .real w => w < 2 ^ 64
    | .bool _ => True
    | .text s => WideOk s
    | .shared i => i < b.shared.length

/-- A workbook that can be written and read: names of sheets are different; texts fit; shared strings are not null;
custom formats have different numbers below 256, and the lengths and contents of their codes are such that the reader
recognises them (C51). -/
structure BBook.Ok (isNull : Str → Bool) (b : BBook) : Prop where
  names : (b.sheets.map (·.1)).Nodup
  name : ∀ s ∈ b.sheets, WideOk s.1
  count : b.sheets.length < 2 ^ 32 - 1 ∧ b.shared.length ≤ 2 ^ 32 ∧ b.formats.length < 2 ^ 16
  shared : ∀ s ∈ b.shared, WideOk s ∧ isNull s = false
  formats : ∀ n ∈ b.formats, n < 256
  codes : (b.codes.map (·.1)).Nodup
  code : ∀ p ∈ b.codes, p.1 < 256 ∧ (utf16 p.2).length < 0xD800 ∧ Char.ofNat (utf16 p.2).length ∉ '"' :: '[' :: ';' :: dateLetters ∧
    '\n' ∉ p.2 ∧ PlainEscapes (beforeSemicolon p.2)

/-- The sheet asked for. -/
def BBook.Selects (b : BBook) (arg : SheetArg) (name : Str) (rows : List (List BCell)) : Prop :=
  ∃ i : Nat, b.sheets[i]? = some (name, rows) ∧ (arg = .index i ∨ arg = .name name)

end Rxls
