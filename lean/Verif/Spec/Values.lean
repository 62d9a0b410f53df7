import Verif.Spec.Read

/-! # Sheets as rows of values -/

namespace Rxls

/-- Rows of values, each with the number of its column. -/
abbrev VGrid := List (List (Int × Val))

/-- The value at a row and a column: the first one there. -/
def VGrid.at (g : VGrid) (k : Int) (r : Nat) : Option Val := ((g.getD r []).find? fun p => p.1 = k).map (·.2)

/-- A column from row 0 on. -/
def VGrid.column (g : VGrid) (k : Int) : List (Option Val) := (List.range g.length).map (g.at k)

/-- The columns with a value, with repetitions, in reading order; without repetitions, from left to right; in reading
order. -/
def VGrid.cols (g : VGrid) : List Int := g.flatten.map (·.1)
@[inherit_doc VGrid.cols] def VGrid.columns (g : VGrid) : List Int := g.cols.dedup.insertionSort (· ≤ ·)
@[inherit_doc VGrid.cols] def VGrid.seen (g : VGrid) : List Int := g.cols.reverse.dedup.reverse

/-- The rows with a value in a column. -/
def VGrid.rowsOf (g : VGrid) (k : Int) : List Nat :=
  (List.range g.length).filter fun r => (g.getD r []).any fun p => p.1 = k

/-- Rows from the first value of a column to the last one. -/
def VGrid.span (g : VGrid) (k : Int) : Nat :=
  match g.rowsOf k with
  | [] => 0
  | r :: rs => (r :: rs).getLast (by simp) - r + 1

/-- The greatest such number. -/
def VGrid.maxSpan (g : VGrid) : Nat := (g.columns.map g.span).foldr max 0

/-- Without some columns. -/
def VGrid.without (cols : List Int) (g : VGrid) : VGrid := g.map fun row => row.filter fun p => p.1 ∉ cols

/-- The rows that an XLSX sheet gives with `skip_rows` `k`, `take_rows` `t` and `take_rows_non_empty` (`keep`).  With
`keep`: from row `k` on, and, if there is any limit, `t + 2 (k + e) + 1` of them, where `e` is the number of rows
without a value there (`take_rows` is not what it says, see C38).  Without `keep`: from the first row with a value on,
`t + 1` rows; nothing at all if `k` is not 0. -/
def xlsxRows {α : Type} (k t : Nat) (keep : Bool) (L : List (List α)) : List (List α) :=
  if keep then
    let W := L.drop k
    let e := (W.takeWhile List.isEmpty).length
    if t + k + e = 0 then W else W.take (t + 2 * k + 2 * e + 1)
  else if k = 0 then
    let W := L.dropWhile List.isEmpty
    if t = 0 then W else W.take (t + 1)
  else []

/-- The rows that an XLSB sheet gives.  With `keep`: from row `k` on, `t + 1` of them if there is any limit.  Without:
those with a value, `t + 1` of them; nothing at all if `k` is not 0. -/
def xlsbRows {α : Type} [DecidableEq α] (k t : Nat) (keep : Bool) (L : List (List α)) : List (List α) :=
  if keep then (if t + k = 0 then L else (L.drop k).take (t + 1))
  else if k = 0 then
    let W := L.filter (· ≠ [])
    if t = 0 then W else W.take (t + 1)
  else []

/-- The table of a sheet. -/
def VGrid.table {A D : Type} (env : Env) (lib : Lib A D) (search : Str → Option (Str → Bool))
    (reMatch : Str → Str → Py Bool) (args : ReadArgs D) (o : ConcatOpts) (g : VGrid) : Py (Table A) :=
  sheetTable env lib search reMatch args o g.column g.seen g.columns g.maxSpan

/-- Conflict resolution is a matter of values in every column; `inline` are the columns without shared strings. -/
def VGrid.Resolvable (env : Env) (o : ConcatOpts) (inline : Int → Bool) (g : VGrid) : Prop :=
  ∀ k, Rxls.Resolvable env o (inline k) (g.column k)

/-- There is a data row below the header, if there is a header. -/
def VGrid.HasData {D : Type} (env : Env) (search : Str → Option (Str → Bool)) (args : ReadArgs D) (o : ConcatOpts)
    (g : VGrid) : Prop :=
  ∀ row : Nat, lookupRow env o g.column g.seen args.lookupSize.toNat search args.lookup = .ok (some row) →
    0 < (g.maxSpan : Int) - row - args.header.height - args.skipAfter

/-- Sensible arguments: there are rows to look up the header in, and no negative number of header rows.  The number
of rows to skip after the header may be negative. -/
structure ReadArgs.Sensible {D : Type} (args : ReadArgs D) : Prop where
  lookup : 0 < args.lookupSize
  header : 0 ≤ args.header.height

end Rxls
