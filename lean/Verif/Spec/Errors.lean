import Verif.Spec.Biff
import Verif.Spec.Xlsx
import Verif.Model.ReadFile

/-! # Cells with error values -/

namespace Rxls

/-- The error values of cells (ISO/IEC 29500-1, 18.18.11 and 18.17.3; `[MS-XLSB]` 2.5.98.2). -/
def errorNames : List Str :=
  ["#NULL!".toList, "#DIV/0!".toList, "#VALUE!".toList, "#REF!".toList, "#NAME?".toList, "#NUM!".toList, "#N/A".toList,
    "#GETTING_DATA".toList]

/-- A cell that is declared to be an error and has one of the error values as its value. -/
def XCell.isError (c : XCell) : Bool :=
  decide (attrGet c.attrs attT = some ['e']) &&
    (valueTexts tagC c.body).all fun s => decide (pyStrip s = [] ∨ pyStrip s ∈ errorNames)

/-- The sheet without its error cells. -/
def XSheet.withoutErrors (s : XSheet) : XSheet :=
  { s with rows := s.rows.map fun r => { r with cells := r.cells.filter fun c => !c.isError } }

/-- The two records of error cells: BrtCellError and BrtFmlaError (`[MS-XLSB]` 2.4.310, 2.4.673). -/
def Record.isError (r : Record) : Bool := r.recId = 3 || r.recId = 11

/-- The same part, or the same sheet without its error cells. -/
def XmlDoc.LosesErrors (d d' : XmlDoc) : Prop :=
  d' = d ∨ ∃ (s : XSheet) (bad : Bool), s.Ok ∧ d = ⟨s.events, bad⟩ ∧ d' = ⟨s.withoutErrors.events, bad⟩

@[inherit_doc XmlDoc.LosesErrors] def LosesErrorRecords (b b' : Bytes) : Prop :=
  b' = b ∨ ∃ rs : List Record, writeAll rs [] = .ok b ∧ writeAll (rs.filter fun r => !r.isError) [] = .ok b'

end Rxls
