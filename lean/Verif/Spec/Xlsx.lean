import Verif.Model.Xlsx
import Verif.Spec.Sheet

/-!
# Reference semantics of an XLSX worksheet: rows of cells
-/

namespace Rxls

/-- A `c` element: its attributes and the events between its tags. -/
structure XCell where
  attrs : List (Str × Str)
  body : List Xml

/-- A `row` element. -/
structure XRow where
  attrs : List (Str × Str)
  cells : List XCell

/-- A worksheet part: what comes before the rows, the rows, what comes after. -/
structure XSheet where
  pre : List Xml
  rows : List XRow
  post : List Xml

def XCell.events (c : XCell) : List Xml := .start tagC c.attrs :: (c.body ++ [.close tagC])

def XRow.events (r : XRow) : List Xml := .start tagRow r.attrs :: (r.cells.flatMap XCell.events ++ [.close tagRow])

def XSheet.events (s : XSheet) : List Xml := s.pre ++ (s.rows.flatMap XRow.events ++ s.post)

/-- Neither a tag of a cell nor of a row. -/
def Xml.plain : Xml → Prop
  | .start t _ => t ≠ tagC ∧ t ≠ tagRow
  | .close t => t ≠ tagC ∧ t ≠ tagRow
  | .text _ => True

/-- Cells and rows are not nested in each other, and every cell has its reference. -/
structure XSheet.Ok (s : XSheet) : Prop where
  pre : ∀ e ∈ s.pre, e.plain
  post : ∀ e ∈ s.post, e.plain
  body : ∀ r ∈ s.rows, ∀ c ∈ r.cells, ∀ e ∈ c.body, e.plain
  ref : ∀ r ∈ s.rows, ∀ c ∈ r.cells, (attrGet c.attrs attR).isSome = true

/-- The texts of the `v` elements inside a cell: those with no other tag opened since `<v>`. -/
def valueTexts : Str → List Xml → List Str
  | _, [] => []
  | _, .start t _ :: es => valueTexts t es
  | l, .text s :: es => if l = tagV then s :: valueTexts l es else valueTexts l es
  | l, .close _ :: es => valueTexts l es

/-- Column of a cell, from its reference. -/
def XCell.col (c : XCell) : Int := colIdx (((attrGet c.attrs attR).getD []).flatMap String.utf8EncodeChar)

/-- The values of a cell: its texts without surrounding whitespace, unless blank, null, or in a column not asked
for. -/
def XCell.items (styles : List (Str × Nat)) (isNull : Str → Bool) (cols : List Int) (c : XCell) : List Item :=
  (((valueTexts tagC c.body).map pyStrip).filter fun t => t ≠ [] ∧ isNull t = false ∧ c.col ∉ cols).map
    fun t => (c.col, xlsxType styles c.attrs, .text t)

/-- The values of a row. -/
def XRow.items (styles : List (Str × Nat)) (isNull : Str → Bool) (cols : List Int) (r : XRow) : List Item :=
  r.cells.flatMap (XCell.items styles isNull cols)

/-- Not a blank text. -/
def Xml.solid : Xml → Bool
  | .text s => decide (pyStrip s ≠ [])
  | _ => true

/-- Number of rows at the start of the sheet without a value. -/
def leadingEmpty (L : List (List Item)) : Nat := (L.takeWhile List.isEmpty).length

end Rxls
