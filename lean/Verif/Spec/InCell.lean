import Verif.Spec.Biff
import Verif.Spec.Xlsx
import Verif.Model.ReadFile

/-! # What is stored in the cells of a worksheet -/

namespace Rxls

/-- What remains of a worksheet when only its cells, the texts of their `v` elements and the ends of its rows are
kept: formulas, texts in other elements, properties of rows and columns, merged ranges, links, validations and the
like are left out.  `b`: the last tag opened is `v`. -/
def valueEvents : Bool → List Xml → List Xml
  | _, [] => []
  | _, .start t a :: es =>
    if t = tagC then .start t a :: valueEvents false es
    else if t = tagV then .start t [] :: valueEvents true es
    else valueEvents false es
  | b, .text s :: es => if b then .text s :: valueEvents b es else valueEvents b es
  | b, .close t :: es => if t = tagC ∨ t = tagRow then .close t :: valueEvents b es else valueEvents b es

/-- The two parts have the same values. -/
def XmlDoc.SameValues (d d' : XmlDoc) : Prop :=
  d.bad = d'.bad ∧ valueEvents false d.events = valueEvents false d'.events

/-- Number of characters of the text of a cell record (`[MS-XLSB]` 2.5.168: the first four bytes of the text). -/
def Record.charCount (r : Record) : Nat :=
  match (r.data.drop 8).take 4 with
  | [a, b, c, d] => a.toNat + 256 * b.toNat + 65536 * c.toNat + 16777216 * d.toNat
  | _ => 0

/-- Number of bytes up to the end of the value of a cell record: eight bytes of column and style, then the value
(`[MS-XLSB]` 2.4.311-2.4.322, 2.4.674-2.4.678); what comes behind it is the formula.  Of a row record only its
presence counts. -/
def Record.valueLength (r : Record) : Nat :=
  if r.recId = 4 ∨ r.recId = 10 then 9
  else if r.recId = 5 ∨ r.recId = 9 then 16
  else if r.recId = 2 ∨ r.recId = 7 then 12
  else if r.recId = 6 ∨ r.recId = 8 then 12 + 2 * r.charCount
  else 0

/-- The values of a sheet part: its rows and cells, without formulas and records of other kinds. -/
def valueRecords (rs : List Record) : List Record :=
  (rs.filter fun r => r.recId ∈ [0, 2, 4, 5, 6, 7, 8, 9, 10, 402]).map fun r => ⟨r.recId, r.data.take r.valueLength⟩

/-- The same part, or parts written from records with the same values. -/
def SameValueRecords (b b' : Bytes) : Prop :=
  b' = b ∨ ∃ rs rs' : List Record, writeAll rs [] = .ok b ∧ writeAll rs' [] = .ok b' ∧ valueRecords rs = valueRecords rs'

/-- `inlineStr` -/
def inlineStrType : Str := ['i', 'n', 'l', 'i', 'n', 'e', 'S', 't', 'r']

/-- `is` -/
def tagIs : Str := ['i', 's']

/-- A cell whose text is stored in the cell itself, in an `is` element (ISO/IEC 29500-1, 18.3.1.53 and 18.18.11):
there is no `v` element (18.3.1.4: `v` is the value of cells of the other types). -/
def XCell.isInline (c : XCell) : Bool :=
  decide (attrGet c.attrs attT = some inlineStrType) &&
    c.body.all fun e => match e with
      | .start t _ => decide (t ≠ tagV)
      | _ => true

/-- The sheet without these cells. -/
def XSheet.withoutInline (s : XSheet) : XSheet :=
  { s with rows := s.rows.map fun r => { r with cells := r.cells.filter fun c => !c.isInline } }

/-- The same part, or the same sheet without its inline cells. -/
def XmlDoc.LosesInline (d d' : XmlDoc) : Prop :=
  d' = d ∨ ∃ (s : XSheet) (bad : Bool), s.Ok ∧ d = ⟨s.events, bad⟩ ∧ d' = ⟨s.withoutInline.events, bad⟩

/-- BrtCellRString (`[MS-XLSB]` 2.4.319): a cell with a formatted text stored in the cell. -/
def Record.isRich (r : Record) : Bool := r.recId = 62

@[inherit_doc XmlDoc.LosesInline] def LosesRichRecords (b b' : Bytes) : Prop :=
  b' = b ∨ ∃ rs : List Record, writeAll rs [] = .ok b ∧ writeAll (rs.filter fun r => !r.isRich) [] = .ok b'

end Rxls
