import Verif.Spec.XGrid
import Verif.Spec.Grid

/-! # The same values stored otherwise -/

namespace Rxls

/-- The XLSX cells are in the same column and have the same value or none; number format, way of storing a text, number of
the shared string, formula, other attributes and the row of the reference may differ. -/
def TCell.SameAs (env : Env) (isNull : Str → Bool) (formats formats' : List StyleClass) (shared shared' : List Str)
    (c c' : TCell) : Prop :=
  c.col = c'.col ∧ c.blank isNull = c'.blank isNull ∧
    (c.blank isNull = false → c.value env formats shared = c'.value env formats' shared')

/-- The XLSB cells are in the same column and have the same value or none; kind of record, RK number or double, cell format,
number of the shared string and formula may differ. -/
def GCell.SameAs (isNull : Str → Bool) (temporal temporal' : List Bytes) (shared shared' : List Str) (c c' : GCell) : Prop :=
  c.col = c'.col ∧ c.blank isNull = c'.blank isNull ∧
    (c.blank isNull = false → c.value temporal shared = c'.value temporal' shared')

end Rxls
