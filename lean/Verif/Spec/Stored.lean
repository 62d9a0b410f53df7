import Verif.Spec.Values

/-! # A table and the sheet it is stored in -/

namespace Rxls

/-- A column of a table: texts, whole numbers, other numbers, or moments (milliseconds); some may be missing. -/
inductive SColumn where
  | texts (l : List (Option Str))
  | wholes (l : List (Option Int))
  | numbers (l : List (Option F64))
  | moments (l : List (Option Int))

/-- The cells below the name of the column. -/
def SColumn.cells : SColumn → List (Option Val)
  | .texts l => l.map (Option.map .str)
  | .wholes l => l.map (Option.map fun (n : Int) => .f8 (.fin (n : ℚ)))
  | .numbers l => l.map (Option.map .f8)
  | .moments l => l.map (Option.map .ts)

/-- The column as an Arrow array. -/
def SColumn.array : SColumn → Arr
  | .texts l => ⟨.utf8, l.map (Option.map .str)⟩
  | .wholes l => ⟨.i8, l.map (Option.map .i8)⟩
  | .numbers l => ⟨.f8, l.map (Option.map .f8)⟩
  | .moments l => ⟨.ts, l.map (Option.map .ts)⟩

/-- What tells the type of the column, when numbers are compared to `p` digits: a value, other than among texts; whole
numbers are small enough (C123); among other numbers there is one clearly between whole numbers. -/
def SColumn.Clear (p : Nat) : SColumn → Prop
  | .texts _ => True
  | .wholes l => (∃ n, some n ∈ l) ∧ ∀ n, some n ∈ l → |n| * 5 ^ p ≤ 2 ^ 53
  | .numbers l => ∃ q : ℚ, some (.fin q) ∈ l ∧ |q| < 2 ^ 63 ∧
      ∀ n : Int, (1 / 2 + 1 / 2 ^ 40) / 10 ^ p + |q| / 2 ^ 50 < |(n : ℚ) - q|
  | .moments l => ∃ n, some n ∈ l

/-- A table: named columns, and the number of rows. -/
structure STable where
  columns : List (Str × SColumn)
  rows : Nat

/-- The values of one row, from column 0 on. -/
def rowOf {α : Type} (value : α → Option Val) (columns : List α) : List (Int × Val) :=
  columns.zipIdx.filterMap fun p => (value p.1).map fun v => ((p.2 : Int), v)

/-- The sheet: a row of names, and the rows of the table. -/
def STable.grid (t : STable) : VGrid :=
  rowOf (fun c => some (.str c.1)) t.columns ::
    (List.range t.rows).map fun r => rowOf (fun c => (c.2.cells[r]?).join) t.columns

/-- Columns of one length with names; no row is without a value. -/
structure STable.Shape (t : STable) : Prop where
  rows : 0 < t.rows
  columns : t.columns ≠ []
  name : ∀ c ∈ t.columns, c.1 ≠ []
  length : ∀ c ∈ t.columns, c.2.cells.length = t.rows
  row : ∀ r < t.rows, ∃ c ∈ t.columns, ∃ v, c.2.cells[r]? = some (some v)

/-- The types are clear, too. -/
structure STable.Ok (p : Nat) (t : STable) : Prop extends t.Shape where
  clear : ∀ c ∈ t.columns, c.2.Clear p

end Rxls
