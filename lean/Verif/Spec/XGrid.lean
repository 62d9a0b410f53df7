import Verif.Spec.Values
import Verif.Spec.Xlsx
import Verif.Spec.XlsxParts
import Verif.Spec.Columns
import Verif.Model.ReadXlsx

/-! # XLSX sheets as grids of typed cells -/

namespace Rxls

/-- Content of a cell: the number of a shared string, or a text whose meaning depends on the cell format. -/
inductive TContent where
  | shared (i : Nat)
  | plain (txt : Str)
  deriving DecidableEq

/-- A cell as written to an XLSX sheet: column, row digits of its reference, cell format, content, other attributes and
elements before the value (a formula). -/
structure TCell where
  col : Nat
  digits : Bytes
  style : Option Nat
  content : TContent
  more : List (Str × Str) := []
  before : List Xml := []

/-- The text of the value. -/
def TContent.text : TContent → Str
  | .shared i => pyStr i
  | .plain s => s

/-- Attributes of the `c` element. -/
def TCell.attrs (c : TCell) : List (Str × Str) :=
  (attR, (colName c.col ++ c.digits).map fun x => Char.ofNat x.toNat) ::
    ((match c.content with | .shared _ => [(attT, ['s'])] | .plain _ => []) ++
      (match c.style with | some i => [(attS, pyStr i)] | none => []) ++ c.more)

/-- The element. -/
def TCell.xml (c : TCell) : XCell :=
  ⟨c.attrs, c.before ++ [.start tagV [], .text c.content.text, .close tagV]⟩

/-- The cell holds a text that is blank or counts as null. -/
def TCell.blank (isNull : Str → Bool) (c : TCell) : Bool :=
  match c.content with
  | .shared _ => false
  | .plain s => pyStrip s = [] || isNull (pyStrip s)

/-- Class of its cell format; no format means the first one. -/
def TCell.cls (formats : List StyleClass) (c : TCell) : StyleClass := formats.getD (c.style.getD 0) .other

/-- The value of a cell.  Texts lose surrounding whitespace. -/
def TCell.value (env : Env) (formats : List StyleClass) (shared : List Str) (c : TCell) : Option Val :=
  match c.content with
  | .shared i => (shared[i]?).map .str
  | .plain s =>
    match c.cls formats with
    | .numeric => (env.pyFloat (pyStrip s)).map .f8
    | .temporal => (env.pyFloat (pyStrip s)).map fun x => .ts (f8ToMsWin x)
    | .other => some (.str (pyStrip s))

/-- The cell can be read: its cell format exists; a number or date has a text that Python takes for a number; a shared
string exists, Python reads its number, and the number does not count as null. -/
structure TCell.Fits (env : Env) (isNull : Str → Bool) (formats : List StyleClass) (shared : List Str) (c : TCell) :
    Prop where
  digits : IsDigits c.digits
  style : c.style.getD 0 < formats.length
  more : ∀ p ∈ c.more, p.1 ≠ attR ∧ p.1 ≠ attT ∧ p.1 ≠ attS
  before : ∀ e ∈ c.before, e.plain ∧ ∀ a, e ≠ .start tagV a
  index : ∀ i, c.content = .shared i → i < 2 ^ 32 ∧ env.pyInt (pyStr i) = some i ∧ isNull (pyStr i) = false
  value : c.blank isNull = false → (c.value env formats shared).isSome

/-- A sheet: rows of cells. -/
abbrev TGrid := List (List TCell)

/-- No cell of a column is a shared string. -/
def TGrid.inline (g : TGrid) (k : Int) : Bool :=
  g.all fun row => row.all fun c => match c.content with
    | .shared _ => decide ((c.col : Int) ≠ k)
    | .plain _ => true

/-- The values of a row. -/
def rowValues (env : Env) (isNull : Str → Bool) (formats : List StyleClass) (shared : List Str) (row : List TCell) :
    List (Int × Val) :=
  (row.filter fun c => !c.blank isNull).filterMap fun c => (c.value env formats shared).map fun v => ((c.col : Int), v)

/-- The values of a sheet. -/
def TGrid.values (env : Env) (isNull : Str → Bool) (formats : List StyleClass) (shared : List Str) (g : TGrid) :
    VGrid :=
  g.map (rowValues env isNull formats shared)

/-- The file holds this sheet.  `formats` are the classes of the cell formats of the styles part (see `classOf`), every
shared string has a text.  The rows of the sheet part are those of the grid; what else is in the part is free. -/
structure XlsxFile.Holds (f : XlsxFile) (env : Env) (toInt : Str → Option Int) (sheet : SheetArg) (isNull : Str → Bool)
    (formats : List StyleClass) (shared : List Str) (g : TGrid) : Prop where
  path : ∃ (sheets : List (Str × Str)) (path : Str) (s : XSheet), xlsxSheets f.rels f.workbook = .ok sheets ∧
    selectSheet sheets sheet = .ok path ∧ f.parts path = some ⟨s.events, false⟩ ∧
    s.rows.map (·.cells) = g.map (List.map TCell.xml) ∧ (∀ e ∈ s.pre, e.plain) ∧ ∀ e ∈ s.post, e.plain
  styles : ∃ es, f.styles = some ⟨es, false⟩ ∧ StylesComplete es ∧ ((numFmts es).map (·.1)).Nodup ∧
    (∀ y ∈ cellFmts es, (toInt y).isSome) ∧
    formats = (cellFmts es).map fun y => classOf (numFmts es) y ((toInt y).getD 0)
  sst : ∃ (pre post : List Xml) (items : List Si), f.shared = some ⟨pre ++ items.flatMap Si.events ++ post, false⟩ ∧
    (∀ e ∈ pre, e.noSi) ∧ (∀ e ∈ post, e.noSi) ∧ (∀ x ∈ items, ∀ e ∈ x.body, e.noSi) ∧
    items.map (Si.entry isNull) = shared.map some
  fits : ∀ row ∈ g, ∀ c ∈ row, c.Fits env isNull formats shared

end Rxls
