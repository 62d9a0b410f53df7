import Verif.Spec.Held
import Verif.Spec.XGrid
import Verif.Spec.Grid
import Verif.Spec.Biff
import Verif.Model.ReadXlsb

/-!
# Sheets as rows of cells with a kind

Conflict resolution works on runs of rows with cells of one kind, and a cell may refer to a shared string that has no
text.  So a cell is its column, the tag of its kind and its value, if any.
-/

namespace Rxls

/-- Rows of cells: column, kind, value (`none`: a text that is missing). -/
abbrev HGrid := List (List (Int × Nat × Option Val))

/-- The cells as values: an empty text in place of a missing one.  Where the cells are is the same. -/
def HGrid.shape (g : HGrid) : VGrid := g.map fun row => row.map fun c => (c.1, c.2.2.getD (.str []))

/-- The cell at a row and a column: the first one there. -/
def HGrid.at (g : HGrid) (k : Int) (r : Nat) : Option (Nat × Option Val) :=
  ((g.getD r []).find? fun c => c.1 = k).map (·.2)

/-- A column from row 0 on. -/
def HGrid.column (g : HGrid) (k : Int) : List (Option (Nat × Option Val)) := (List.range g.length).map (g.at k)

/-- A column with the numbers of its runs in place of the kinds. -/
def HGrid.rows (g : HGrid) (k : Int) : List (Option (Nat × Option Val)) :=
  List.zipWith (fun n r => r.map fun c => (n, c.2)) (runNumbers 0 none (g.column k)) (g.column k)

/-- No cell of a column is a shared string (kind 0x11). -/
def HGrid.inline (g : HGrid) (k : Int) : Bool := g.all fun row => row.all fun c => c.1 ≠ k || c.2.1 ≠ 0x11

/-- Without some columns. -/
def HGrid.without (cols : List Int) (g : HGrid) : HGrid := g.map fun row => row.filter fun c => c.1 ∉ cols

/-- How the columns read. -/
def HGrid.view (env : Env) (o : ConcatOpts) (g : HGrid) : Int → View :=
  fun k off len m => fetchedHeld env o (pickRows (g.rows k) off len m)

/-- The table of a sheet. -/
def HGrid.table {A D : Type} (env : Env) (lib : Lib A D) (search : Str → Option (Str → Bool))
    (reMatch : Str → Str → Py Bool) (args : ReadArgs D) (o : ConcatOpts) (g : HGrid) : Py (Table A) :=
  sheetTableV env lib search reMatch args (g.view env o) g.shape.seen g.shape.columns g.shape.maxSpan

/-- Temporal resolution meets no shared strings: no column has moments and shared strings, or it is off. -/
def HGrid.Datable (o : ConcatOpts) (g : HGrid) : Prop :=
  o.confDt = true → ∀ k, g.inline k = true ∨ ∀ j n, some (j, some (.ts n)) ∉ g.rows k

/-- There is a data row below the header, if there is a header. -/
def HGrid.HasData {D : Type} (env : Env) (search : Str → Option (Str → Bool)) (args : ReadArgs D) (o : ConcatOpts)
    (g : HGrid) : Prop :=
  ∀ row : Nat, lookupRowV env (g.view env o) g.shape.seen args.lookupSize.toNat search args.lookup = .ok (some row) →
    0 < (g.shape.maxSpan : Int) - row - args.header.height - args.skipAfter

/-! ## XLSX -/

/-- Tag of the kind of a cell. -/
def TCell.kind (formats : List StyleClass) (c : TCell) : Nat :=
  match c.content with
  | .shared _ => 0x11
  | .plain _ =>
    match c.cls formats with
    | .numeric => 0x20
    | .temporal => 0x24
    | .other => 0x18

/-- The cell is passed over: the text of its value, which for a shared string is the number of it, is blank or null. -/
def TCell.passed (isNull : Str → Bool) (c : TCell) : Bool :=
  match c.content with
  | .shared i => isNull (pyStr i)
  | .plain s => pyStrip s = [] || isNull (pyStrip s)

/-- What the cell holds; the entries of the shared strings may have no text. -/
def TCell.held (env : Env) (formats : List StyleClass) (shared : List (Option Str)) (c : TCell) : Option (Option Val) :=
  match c.content with
  | .shared i => (shared[i]?).map (Option.map .str)
  | .plain s =>
    match c.cls formats with
    | .numeric => (env.pyFloat (pyStrip s)).map fun x => some (.f8 x)
    | .temporal => (env.pyFloat (pyStrip s)).map fun x => some (.ts (f8ToMsWin x))
    | .other => some (some (.str (pyStrip s)))

/-- The cell can be read: its cell format exists; a number or date has a text that Python takes for a number; a shared
string exists, and Python reads its number. -/
structure TCell.Readable (env : Env) (isNull : Str → Bool) (formats : List StyleClass) (shared : List (Option Str))
    (c : TCell) : Prop where
  digits : IsDigits c.digits
  style : c.style.getD 0 < formats.length
  more : ∀ p ∈ c.more, p.1 ≠ attR ∧ p.1 ≠ attT ∧ p.1 ≠ attS
  before : ∀ e ∈ c.before, e.plain ∧ ∀ a, e ≠ .start tagV a
  index : ∀ i, c.content = .shared i → i < 2 ^ 32 ∧ env.pyInt (pyStr i) = some i
  held : c.passed isNull = false → (c.held env formats shared).isSome

/-- The cells of a row. -/
def rowHeld (env : Env) (isNull : Str → Bool) (formats : List StyleClass) (shared : List (Option Str))
    (row : List TCell) : List (Int × Nat × Option Val) :=
  (row.filter fun c => !c.passed isNull).filterMap fun c =>
    (c.held env formats shared).map fun v => ((c.col : Int), c.kind formats, v)

/-- The cells of a sheet. -/
def TGrid.held (env : Env) (isNull : Str → Bool) (formats : List StyleClass) (shared : List (Option Str)) (g : TGrid) :
    HGrid :=
  g.map (rowHeld env isNull formats shared)

/-- The file holds this sheet, as in `XlsxFile.Holds`, but entries of the shared strings may have no text: those that
are blank or null. -/
structure XlsxFile.Stores (f : XlsxFile) (env : Env) (toInt : Str → Option Int) (sheet : SheetArg) (isNull : Str → Bool)
    (formats : List StyleClass) (shared : List (Option Str)) (g : TGrid) : Prop where
  path : ∃ (sheets : List (Str × Str)) (path : Str) (s : XSheet), xlsxSheets f.rels f.workbook = .ok sheets ∧
    selectSheet sheets sheet = .ok path ∧ f.parts path = some ⟨s.events, false⟩ ∧
    s.rows.map (·.cells) = g.map (List.map TCell.xml) ∧ (∀ e ∈ s.pre, e.plain) ∧ ∀ e ∈ s.post, e.plain
  styles : ∃ es, f.styles = some ⟨es, false⟩ ∧ StylesComplete es ∧ ((numFmts es).map (·.1)).Nodup ∧
    (∀ y ∈ cellFmts es, (toInt y).isSome) ∧
    formats = (cellFmts es).map fun y => classOf (numFmts es) y ((toInt y).getD 0)
  sst : ∃ (pre post : List Xml) (items : List Si), f.shared = some ⟨pre ++ items.flatMap Si.events ++ post, false⟩ ∧
    (∀ e ∈ pre, e.noSi) ∧ (∀ e ∈ post, e.noSi) ∧ (∀ x ∈ items, ∀ e ∈ x.body, e.noSi) ∧
    shared = items.map (Si.entry isNull)
  fits : ∀ row ∈ g, ∀ c ∈ row, c.Readable env isNull formats shared

/-! ## XLSB -/

/-- The cells of an XLSB sheet but those with a null text of their own; shared strings are all there. -/
def Grid.held (temporal : List Bytes) (shared : List Str) (isNull : Str → Bool) (g : Grid) : HGrid :=
  g.map fun row => (row.filter fun c => !c.blank isNull).map fun c =>
    ((c.col : Int), c.content.tag (temporal.contains c.style), some (c.value temporal shared))

/-- The file holds this sheet, as in `XlsbFile.Holds`, but texts of shared strings may be null, and the sheet may be
without values. -/
structure XlsbFile.Stores (f : XlsbFile) (sheet : SheetArg) (temporal : List Bytes) (shared : List Str) (g : Grid) :
    Prop where
  path : ∃ sheets path part rs hdrs tail, xlsbSheets f.rels f.workbook = .ok sheets ∧
    selectSheet sheets sheet = .ok path ∧ f.parts path = some part ∧ writeAll rs [] = .ok part ∧
    rs.filter (fun r => decide (r.recId ∈ sheetIds)) = g.records hdrs ++ tail ∧
    (tail = [] ∨ ∃ e post, tail = e :: post ∧ e.recId = 402) ∧ ∀ r ∈ tail, r.recId ≠ 0
  styles : ∃ b, f.styles = some b ∧ xlsbStyles b = .ok temporal
  sst : ∃ (b : Bytes) (items : List (UInt8 × Str × Bytes)), f.shared = some b ∧
    scanBiff (some [19]) b = items.map (fun x => sstItem x.1 x.2.1 x.2.2) ∧ items.length ≤ 2 ^ 32 ∧
    (∀ x ∈ items, NoMark x.2.1 ∧ (utf16 x.2.1).length < 2 ^ 32) ∧ shared = items.map (·.2.1)
  fits : ∀ row ∈ g, ∀ c ∈ row, c.Fits shared.length

/-- The cell is a shared string that counts as null. -/
def nullShared (isNull : Str → Bool) (c : Int × Nat × Option Val) : Bool :=
  c.2.1 = 0x11 && match c.2.2 with
    | some (.str s) => isNull s
    | _ => false

/-- The elements with `p`, and the very first element, `p` or not. -/
def keepFirst {α : Type} (p : α → Bool) : List (List α) → List (List α)
  | [] => []
  | [] :: L => [] :: keepFirst p L
  | (x :: r) :: L => (x :: r.filter p) :: L.map (List.filter p)

/-- What an XLSB sheet gives: null shared strings are left out, except as the first cell of the rows from `skip_rows`
on (the null keys are not known before the shared strings are first used). -/
def HGrid.shownXlsb (isNull : Str → Bool) (k t : Nat) (keep : Bool) (cols : List Int) (H : HGrid) : HGrid :=
  xlsbRows k t keep ((H.without cols).take k ++ keepFirst (fun c => !nullShared isNull c) ((H.without cols).drop k))

/-- What an XLSX sheet gives. -/
def HGrid.shownXlsx (k t : Nat) (keep : Bool) (cols : List Int) (H : HGrid) : HGrid :=
  xlsxRows k t keep (H.without cols)

end Rxls
