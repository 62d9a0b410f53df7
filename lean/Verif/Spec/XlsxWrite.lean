import Verif.Spec.Archive
import Verif.Spec.XGrid
import Verif.Spec.Opc

/-! # A reference writer of XLSX workbooks -/

namespace Rxls

/-- A cell as an application stores it: column, cell format, content. -/
structure WCell where
  col : Nat
  style : Option Nat := none
  content : TContent
  deriving DecidableEq

/-- A workbook: sheets (name and rows), shared strings, the number format of every cell format, custom number formats. -/
structure WBook where
  sheets : List (Str × List (List WCell))
  shared : List Str
  formats : List Nat
  codes : List (Nat × Str) := []

/-- An element. -/
def elem (tag : Str) (attrs : List (Str × Str)) (body : List Xml) : List Xml :=
  .start tag attrs :: (body ++ [.close tag])

/-- Element and attribute names. -/
def tagWorksheet : Str := ['w', 'o', 'r', 'k', 's', 'h', 'e', 'e', 't']
@[inherit_doc tagWorksheet] def tagSheetData : Str := ['s', 'h', 'e', 'e', 't', 'D', 'a', 't', 'a']
@[inherit_doc tagWorksheet] def tagSst : Str := ['s', 's', 't']
@[inherit_doc tagWorksheet] def tagT : Str := ['t']
@[inherit_doc tagWorksheet] def tagWorkbook : Str := ['w', 'o', 'r', 'k', 'b', 'o', 'o', 'k']
@[inherit_doc tagWorksheet] def tagSheets : Str := ['s', 'h', 'e', 'e', 't', 's']
@[inherit_doc tagWorksheet] def tagStyleSheet : Str := ['s', 't', 'y', 'l', 'e', 'S', 'h', 'e', 'e', 't']
@[inherit_doc tagWorksheet] def tagNumFmts : Str := ['n', 'u', 'm', 'F', 'm', 't', 's']
@[inherit_doc tagWorksheet] def tagCellXfs : Str := ['c', 'e', 'l', 'l', 'X', 'f', 's']
@[inherit_doc tagWorksheet] def tagRelationships : Str := tagRelationship ++ ['s']
@[inherit_doc tagWorksheet] def attSheetId : Str := ['s', 'h', 'e', 'e', 't', 'I', 'd']

/-- The type of the relationship to a worksheet. -/
def worksheetUri : Str := "http://schemas.openxmlformats.org/officeDocument/2006/relationships/worksheet".toList

/-- `rId1`, `worksheets/sheet1.xml`. -/
def relIdOf (i : Nat) : Str := ['r', 'I', 'd'] ++ pyStr (i + 1)
@[inherit_doc relIdOf] def sheetTarget (i : Nat) : Str :=
  ['w', 'o', 'r', 'k', 's', 'h', 'e', 'e', 't', 's', '/', 's', 'h', 'e', 'e', 't'] ++ pyStr (i + 1) ++ ['.', 'x', 'm', 'l']

/-- The row digits of a cell reference. -/
def rowDigits (i : Nat) : Bytes := (pyStr (i + 1)).map fun c => UInt8.ofNat c.toNat

/-- The rows of a sheet with the cell references. -/
def gridOf (rows : List (List WCell)) : TGrid :=
  rows.zipIdx.map fun p => p.1.map fun c => { col := c.col, digits := rowDigits p.2, style := c.style, content := c.content }

/-- The worksheet part. -/
def sheetOf (rows : List (List WCell)) : XSheet where
  pre := [.start tagWorksheet [], .start tagSheetData []]
  rows := (gridOf rows).zipIdx.map fun p => ⟨[(attR, pyStr (p.2 + 1))], p.1.map TCell.xml⟩
  post := [.close tagSheetData, .close tagWorksheet]

/-- A shared string. -/
def siOf (s : Str) : Si := ⟨[], elem tagT [] [.text s]⟩

/-- The parts of the workbook. -/
def WBook.sharedDoc (b : WBook) : List Xml := elem tagSst [] ((b.shared.map siOf).flatMap Si.events)
@[inherit_doc WBook.sharedDoc] def WBook.stylesDoc (b : WBook) : List Xml :=
  elem tagStyleSheet []
    (elem tagNumFmts [] (b.codes.flatMap fun p => elem tagNumFmt [(attNumFmtId, pyStr p.1), (attFormatCode, p.2)] []) ++
      elem tagCellXfs [] (b.formats.flatMap fun n => elem tagXf [(attNumFmtId, pyStr n), (attXfId, ['0'])] []))
@[inherit_doc WBook.sharedDoc] def WBook.workbookDoc (b : WBook) : List Xml :=
  elem tagWorkbook []
    (elem tagSheets [] (b.sheets.zipIdx.flatMap fun p =>
      elem tagSheet [(attName, p.1.1), (attSheetId, pyStr (p.2 + 1)), (attRId, relIdOf p.2)] []))
@[inherit_doc WBook.sharedDoc] def WBook.relsDoc (b : WBook) : List Xml :=
  elem tagRelationships [] (b.sheets.zipIdx.flatMap fun p =>
    elem tagRelationship [(attId, relIdOf p.2), (attType, worksheetUri), (attTarget, sheetTarget p.2)] [])

/-- The entries of the archive. -/
def WBook.entries (b : WBook) : Archive :=
  [(xlsxRelsName, xmlBytes b.relsDoc), (workbookXml, xmlBytes b.workbookDoc), (xlsxStylesName, xmlBytes b.stylesDoc),
    (xlsxSharedName, xmlBytes b.sharedDoc)] ++
  b.sheets.zipIdx.map fun p => (xlPrefix ++ sheetTarget p.2, xmlBytes (sheetOf p.1.2).events)

/-- A text that XML can hold and that fits in the buffer of pyexpat. -/
def TextOk (s : Str) : Prop := s ≠ [] ∧ Chars s ∧ (s.flatMap String.utf8EncodeChar).length ≤ 8192

/-- The class of a number format. -/
def WBook.classes (b : WBook) : List StyleClass :=
  b.formats.map fun n => classOf (b.codes.map fun p => (pyStr p.1, p.2)) (pyStr n) n

/-- The texts of the shared strings: without surrounding white space. -/
def WBook.texts (b : WBook) : List Str := b.shared.map pyStrip

/-- A cell of a workbook that can be read: its cell format exists; a number or date has a text that Python takes for a
number; a shared string exists, Python reads its number, and the number does not count as null. -/
structure WCell.Ok (env : Env) (isNull : Str → Bool) (b : WBook) (c : WCell) : Prop where
  text : TextOk c.content.text
  style : c.style.getD 0 < b.formats.length
  index : ∀ i, c.content = .shared i → i < b.shared.length ∧ i < 2 ^ 32 ∧ env.pyInt (pyStr i) = some i ∧ isNull (pyStr i) = false
  number : ∀ s, c.content = .plain s → b.classes.getD (c.style.getD 0) .other ≠ .other →
    (env.pyFloat (pyStrip s)).isSome ∨ pyStrip s = [] ∨ isNull (pyStrip s) = true

/-- A workbook that can be read: names of sheets are different; texts are texts XML can hold; shared strings are neither
blank nor null; custom formats have different numbers; Python reads the numbers of formats. -/
structure WBook.Ok (env : Env) (toInt : Str → Option Int) (isNull : Str → Bool) (b : WBook) : Prop where
  names : (b.sheets.map (·.1)).Nodup
  name : ∀ s ∈ b.sheets, Chars s.1
  shared : ∀ s ∈ b.shared, TextOk s ∧ pyStrip s ≠ [] ∧ isNull (pyStrip s) = false
  codes : (b.codes.map (·.1)).Nodup
  code : ∀ p ∈ b.codes, Chars p.2
  ints : ∀ n ∈ b.formats, toInt (pyStr n) = some (n : Int)

/-- The sheet asked for. -/
def WBook.Selects (b : WBook) (arg : SheetArg) (name : Str) (rows : List (List WCell)) : Prop :=
  ∃ i : Nat, b.sheets[i]? = some (name, rows) ∧ (arg = .index i ∨ arg = .name name)

end Rxls
