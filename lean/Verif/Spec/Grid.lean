import Verif.Spec.Values
import Verif.Spec.Sheet
import Verif.Spec.Rk

/-! # Sheets as grids of typed cells -/

namespace Rxls

/-- A cell as written to an XLSB sheet: column, cell format, content, and the free parts of its record. -/
structure GCell where
  col : Nat
  style : Bytes
  content : Content
  id : Nat
  flags : UInt8
  extra : Bytes

/-- The record of a cell. -/
def GCell.record (c : GCell) : Record := ⟨c.id, cellPayload c.col c.style c.flags c.content c.extra⟩

/-- The format can carry the cell, and its shared string exists. -/
def GCell.Fits (nshared : Nat) (c : GCell) : Prop :=
  c.col < 2 ^ 32 ∧ c.style.length = 3 ∧ c.content.Fits ∧ c.id ∈ c.content.ids ∧
    ∀ i, c.content = .shared i → i < nshared

/-- The cell holds a text that counts as null. -/
def GCell.blank (isNull : Str → Bool) (c : GCell) : Bool :=
  match c.content with
  | .text s => isNull s
  | _ => false

/-- The value of a cell; `temporal` are the cell formats that show a date. -/
def GCell.value (temporal : List Bytes) (shared : List Str) (c : GCell) : Val :=
  match c.content with
  | .rk w => if c.style ∈ temporal then .ts (f8ToMsWin (rkValue w)) else .f8 (rkValue w)
  | .real w => if c.style ∈ temporal then .ts (f8ToMsWin (F64.ofBits w)) else .f8 (F64.ofBits w)
  | .bool b => .f8 (.fin (if b then 1 else 0))
  | .text s => .str s
  | .shared i => .str (shared.getD i [])

/-- A sheet: rows of cells. -/
abbrev Grid := List (List GCell)

/-- No cell of a column is a shared string. -/
def Grid.inline (g : Grid) (k : Int) : Bool :=
  g.all fun row => row.all fun c => match c.content with
    | .shared _ => decide ((c.col : Int) ≠ k)
    | _ => true

/-- The rows that count: all of them, or those with a value. -/
def Grid.counted (keepEmpty : Bool) (isNull : Str → Bool) (g : Grid) : Grid :=
  if keepEmpty then g else g.filter fun row => row.any fun c => !c.blank isNull

/-- The value at a row and a column: that of the first cell there. -/
def Grid.at (temporal : List Bytes) (shared : List Str) (isNull : Str → Bool) (g : Grid) (k : Int) (r : Nat) :
    Option Val :=
  ((g.getD r []).find? fun c => !c.blank isNull && decide ((c.col : Int) = k)).map (GCell.value temporal shared)

/-- The columns with a value, in reading order with repetitions. -/
def Grid.cols (isNull : Str → Bool) (g : Grid) : List Int :=
  g.flatten.filterMap fun c => if c.blank isNull then none else some (c.col : Int)

/-- The columns with a value, from left to right; in reading order. -/
def Grid.columns (isNull : Str → Bool) (g : Grid) : List Int := (g.cols isNull).dedup.insertionSort (· ≤ ·)
@[inherit_doc Grid.columns] def Grid.seen (isNull : Str → Bool) (g : Grid) : List Int :=
  (g.cols isNull).reverse.dedup.reverse

/-- The rows with a value in a column. -/
def Grid.rowsOf (isNull : Str → Bool) (g : Grid) (k : Int) : List Nat :=
  (List.range g.length).filter fun r => (g.getD r []).any fun c => !c.blank isNull && decide ((c.col : Int) = k)

/-- Rows from the first value of a column to the last one. -/
def Grid.span (isNull : Str → Bool) (g : Grid) (k : Int) : Nat :=
  match g.rowsOf isNull k with
  | [] => 0
  | r :: rs => (r :: rs).getLast (by simp) - r + 1

/-- The greatest such number. -/
def Grid.maxSpan (isNull : Str → Bool) (g : Grid) : Nat :=
  ((g.columns isNull).map (g.span isNull)).foldr max 0

/-- The values of a sheet. -/
def Grid.values (temporal : List Bytes) (shared : List Str) (isNull : Str → Bool) (g : Grid) : VGrid :=
  g.map fun row => (row.filter fun c => !c.blank isNull).map fun c => ((c.col : Int), c.value temporal shared)

/-- The records of the sheet data; `hdrs r` is the payload of the row record of row `r`. -/
def Grid.records (hdrs : Nat → Bytes) (g : Grid) : List Record :=
  g.zipIdx.flatMap fun p => ⟨0, hdrs p.2⟩ :: p.1.map GCell.record

end Rxls
