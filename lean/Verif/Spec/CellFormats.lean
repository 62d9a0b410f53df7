import Verif.Spec.XlsxParts
import Verif.Spec.XlsxWrite

/-! # The list of cell formats (ECMA-376 part 1, 18.8.10 and 18.8.45) -/

namespace Rxls

/-- The `xf` elements inside of `cellXfs`, by their attributes; the argument tells whether we are inside.  The style number
of a cell is the position in this list. -/
def xfElems : Bool → List Xml → List (List (Str × Str))
  | _, [] => []
  | false, .start t _ :: es => xfElems (t = tagCellXfs) es
  | true, .start t a :: es => if t = tagXf then a :: xfElems true es else xfElems true es
  | b, .text _ :: es => xfElems b es
  | b, .close t :: es => xfElems (b && t ≠ tagCellXfs) es

/-- The `xf` elements elsewhere, which are the formats of the cell styles. -/
def elsewhereXfs : Bool → List Xml → List (List (Str × Str))
  | _, [] => []
  | false, .start t a :: es => if t = tagXf then a :: elsewhereXfs false es else elsewhereXfs (t = tagCellXfs) es
  | true, .start _ _ :: es => elsewhereXfs true es
  | b, .text _ :: es => elsewhereXfs b es
  | b, .close t :: es => elsewhereXfs (b && t ≠ tagCellXfs) es

end Rxls
