import Verif.Spec.XlsxParts

/-! # Style sheets with differential formats (ECMA-376 part 1, 18.8.14 and 18.8.15) -/

namespace Rxls

/-- The element of the differential formats, those of conditional formatting and tables. -/
def tagDxfs : Str := ['d', 'x', 'f', 's']

/-- The events outside and inside of `dxfs` elements; the argument tells whether we are inside. -/
def outsideDxfs : Bool → List Xml → List Xml
  | _, [] => []
  | false, .start t a :: es => if t = tagDxfs then outsideDxfs true es else .start t a :: outsideDxfs false es
  | false, e :: es => e :: outsideDxfs false es
  | true, .close t :: es => if t = tagDxfs then outsideDxfs false es else outsideDxfs true es
  | true, _ :: es => outsideDxfs true es
@[inherit_doc outsideDxfs] def insideDxfs : Bool → List Xml → List Xml
  | _, [] => []
  | false, .start t _ :: es => if t = tagDxfs then insideDxfs true es else insideDxfs false es
  | false, _ :: es => insideDxfs false es
  | true, .close t :: es => if t = tagDxfs then insideDxfs false es else .close t :: insideDxfs true es
  | true, e :: es => e :: insideDxfs true es

/-- The last code with this id. -/
def codeOf (fs : List (Str × Str)) (y : Str) : Option Str := (fs.filter fun p => p.1 = y).getLast?.map (·.2)

/-- The class of number format `y` (of number `n`) when the code of its id, if there is one, is `code`. -/
def classWith (code : Option Str) (y : Str) (n : Int) : StyleClass := classOf (code.toList.map fun c => (y, c)) y n

end Rxls
