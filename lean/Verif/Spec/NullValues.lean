import Verif.Spec.XGrid
import Verif.Spec.Grid

/-! # A sheet without the texts that count as null -/

namespace Rxls

/-- The XLSX sheet without the cells of which the text, stripped of blanks, is in `P`. -/
def TGrid.emptied (P : Str → Bool) (g : TGrid) : TGrid :=
  g.map fun row => row.filter fun c => match c.content with
    | .plain s => !P (pyStrip s)
    | .shared _ => true

/-- The XLSB sheet without the cells of which the text is in `P`. -/
def Grid.emptied (P : Str → Bool) (g : Grid) : Grid :=
  g.map fun row => row.filter fun c => match c.content with
    | .text s => !P s
    | _ => true

end Rxls
