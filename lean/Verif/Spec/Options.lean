import Verif.Model.ReadFile

/-! # Sheets in which there is nothing to convert -/

namespace Rxls

/-- The cells an XLSX sheet delivers; none if the file cannot be read. -/
def XlsxFile.cellsOf (toInt : Str → Option Int) (isNull : Str → Bool) (ia : IterArgs) (f : XlsxFile) : List Cell :=
  match xlsxSheets f.rels f.workbook with
  | .error _ => []
  | .ok sheets =>
    match selectSheet sheets ia.sheet with
    | .error _ => []
    | .ok path =>
      match f.parts path, f.formats toInt with
      | some doc, .ok styles =>
        (xlsxSheet styles isNull ⟨ia.skipRows.toNat, ia.takeRows.toNat, ia.keepEmpty, ia.skipCols⟩ doc).1.filterMap Ev.cell?
      | _, _ => []

/-- The cells an XLSB sheet delivers; none if the file cannot be read. -/
def XlsbFile.cellsOf (isNull : Str → Bool) (ia : IterArgs) (f : XlsbFile) : List Cell :=
  match xlsbSheets f.rels f.workbook with
  | .error _ => []
  | .ok sheets =>
    match selectSheet sheets ia.sheet with
    | .error _ => []
    | .ok path =>
      match f.parts path, f.temporal, f.strings isNull with
      | some part, .ok styles, .ok (_, nulls) =>
        match xlsbSheet styles isNull (fun seen => if seen then nulls else [])
            ⟨ia.skipRows.toNat, ia.takeRows.toNat, ia.keepEmpty, ia.skipCols⟩ part with
        | .ok evs => evs.filterMap Ev.cell?
        | .error _ => []
      | _, _, _ => []

/-- The cells a file delivers. -/
def Package.cellsOf {D : Type} (toInt : Str → Option Int) (a : FileArgs D) (p : Package) : List Cell :=
  match fileKind p.names with
  | .error _ => []
  | .ok .xlsx => p.xlsx.cellsOf toInt (skipPredicate errorStringsXlsx a.nulls) a.iter
  | .ok .xlsb => p.xlsb.cellsOf (skipPredicate errorStringsXlsb a.nulls) a.iter

/-- What a cell is typed as: text, moment or number. -/
inductive Sort3 where
  | text
  | moment
  | number
  deriving DecidableEq, Repr

/-- The type of a cell. -/
def sortOf (xdt : Nat) : Sort3 :=
  if xdt.testBit 4 then .text else if xdt.testBit 2 then .moment else .number

/-- The value of an XLSX cell typed as a moment or a number is a number. -/
def Numeral (pyFloat : Str → Option F64) (c : Cell) : Prop :=
  sortOf c.xdt = .text ∨ ∃ s x, c.val = .text s ∧ pyFloat s = some x

/-- Every column has cells of one sort. -/
def OneSort (cells : List Cell) : Prop := ∀ c ∈ cells, ∀ c' ∈ cells, c.col = c'.col → sortOf c.xdt = sortOf c'.xdt

end Rxls
