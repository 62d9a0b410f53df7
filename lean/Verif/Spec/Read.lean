import Verif.Spec.Series
import Verif.Spec.Concat
import Verif.Spec.Strptime
import Verif.Model.Read
import Mathlib.Data.List.Dedup
import Mathlib.Data.List.ReduceOption
import Mathlib.Data.List.Sort

/-!
# Reference semantics of a table read from a sheet
-/

namespace Rxls

/-- A moment, a number, a text. -/
def isTs : Option Val → Bool
  | some (.ts _) => true
  | _ => false
@[inherit_doc isTs] def isNum : Option Val → Bool
  | some (.f8 _) => true
  | _ => false
@[inherit_doc isTs] def isText : Option Val → Bool
  | some (.str _) => true
  | _ => false

/-- A number that counts as an integer; anything else passes. -/
def wholeNum (prec : Nat) : Option Val → Bool
  | some (.f8 x) => f8IsI8 [x] prec
  | _ => true

/-- Type of a column with these cells: a mixture is text; moments are timestamps; numbers are integers if they all
are, else floats; texts, and nothing at all, are text. -/
def columnType (prec : Nat) (cells : List (Option Val)) : DType :=
  let kinds := (cells.any isTs).toNat + (cells.any isNum).toNat + (cells.any isText).toNat
  if 1 < kinds then .utf8
  else if cells.any isTs then .ts
  else if cells.any isNum then (if cells.all (wholeNum prec) then .i8 else .f8)
  else .utf8

/-- A value in a column of a type. -/
def rendered (env : Env) : DType → Val → Val
  | .utf8, v => .str (cellText env v)
  | .i8, .f8 x => .i8 x.toI64
  | _, v => v

/-- The array of a column with these cells, without conflict resolution. -/
def materialise (env : Env) (prec : Nat) (cells : List (Option Val)) : Arr :=
  ⟨columnType prec cells, cells.map (Option.map (rendered env (columnType prec cells)))⟩

/-- The moment a text stands for: that of the first format that gives one other than 0, with moments before 1970
reduced to their time of day.  With no formats given, those of the library. -/
def textMoment (env : Env) (o : ConcatOpts) (s : Str) : Option Int :=
  (if o.formats = [] then env.formats else o.formats).findSome? fun f =>
    (env.strptime f (some s)).bind fun v => if timeOfDay v = 0 then none else some (timeOfDay v)

/-- Every text among the cells reads as a moment. -/
def momentTexts (env : Env) (o : ConcatOpts) (cells : List (Option Val)) : Bool :=
  cells.all fun v => match v with
    | some (.str s) => (textMoment env o s).isSome
    | _ => true

/-- The number a text stands for. -/
def asNumber (env : Env) : Val → Val
  | .str s => .f8 ((env.parseF8 s).getD (.fin 0))
  | v => v

/-- The moment a value among the cells stands for: numbers are serial numbers; texts are moments if they all are, else
numbers if they all are (and numbers are wanted), else texts. -/
def asMoment (env : Env) (o : ConcatOpts) (cells : List (Option Val)) : Val → Val
  | .f8 x => .ts (f8ToMsWin x)
  | .str s =>
    if momentTexts env o cells then .ts ((textMoment env o s).getD 0)
    else if o.confNum && numericTexts env cells then .ts (f8ToMsWin ((env.parseF8 s).getD (.fin 0)))
    else .str s
  | v => v

/-- Conflict resolution: beside moments, numbers and texts become moments (if asked for); beside numbers, texts that
all read as numbers become numbers (if asked for). -/
def resolved (env : Env) (o : ConcatOpts) (cells : List (Option Val)) : List (Option Val) :=
  if cells.any isTs then (if o.confDt then cells.map (Option.map (asMoment env o cells)) else cells)
  else if o.confNum && cells.any isNum && numericTexts env cells then cells.map (Option.map (asNumber env))
  else cells

/-- The array of a column with these cells. -/
def fetched (env : Env) (o : ConcatOpts) (cells : List (Option Val)) : Arr :=
  materialise env o.prec (resolved env o cells)

/-- Columns for which conflict resolution is a matter of values alone.  It works run by run, and numeric resolution
stops at the first run that is not numeric, so beside numbers or moments the texts must be all numbers or none.  Temporal
resolution raises
`ArrowNotImplementedError` for shared strings, so beside moments there must be no texts or only inline ones (`inline`),
and they must be all moments or none. -/
structure Resolvable (env : Env) (o : ConcatOpts) (inline : Bool) (cells : List (Option Val)) : Prop where
  num : o.confNum = true → cells.any isNum = true ∨ cells.any isTs = true →
    (∀ s, some (.str s) ∈ cells → (env.parseF8 s).isSome = true) ∨ (∀ s, some (.str s) ∈ cells → env.parseF8 s = none)
  tmp : o.confDt = true → cells.any isTs = true → cells.any isText = false ∨ inline = true ∧
    ((∀ s, some (.str s) ∈ cells → (textMoment env o s).isSome = true) ∨
      (∀ s, some (.str s) ∈ cells → textMoment env o s = none))

/-- The rows of a column read with a window, or with a window and a mask. -/
def pickRows {α : Type} (col : List (Option α)) (off len : Nat) : Option (List Bool) → List (Option α)
  | none => window col off len
  | some m => maskedRows col off m

/-- How many rows that is. -/
def keptRows (len : Nat) : Option (List Bool) → Nat
  | none => len
  | some m => (m.filter id).length

/-- The texts of a column with these cells, as used for headers. -/
def headTexts (env : Env) (o : ConcatOpts) (cells : List (Option Val)) : List (Option Str) :=
  (fetched env o cells).vals.map (Option.map (cellText env))

/-! ## Sheets -/

/-- The cells of one column, in reading order. -/
def colCells (cells : List Cell) (k : Int) : List Cell := cells.filter fun c => c.col = k

/-- The values of one column, from row 0 to its last cell. -/
def colValues (env : Env) (binary : Bool) (shared : List (Option Str)) (cells : List Cell) (k : Int) :
    List (Option Val) :=
  (rawColumn (colCells cells k)).map (rowValue env binary shared)

/-- A column has no reference to a shared string. -/
def inlineColumn (cells : List Cell) (k : Int) : Bool := (colCells cells k).all fun c => c.xdt ≠ 0x11

/-- The columns with a cell, left to right. -/
def columnsOf (cells : List Cell) : List Int := (cells.map (·.col)).dedup.insertionSort (· ≤ ·)

/-- The columns with a cell, in the order of their first cells. -/
def firstSeen (cells : List Cell) : List Int := (cells.reverse.map (·.col)).dedup.reverse

/-- Rows from the first cell of a column to its last one. -/
def spanOf (cells : List Cell) (k : Int) : Int :=
  match colCells cells k with
  | [] => 0
  | c :: cs => (height (c :: cs) : Int) - c.row

/-- The number of rows `read` works with: the greatest span of a column. -/
def maxSpan (cells : List Cell) : Int := ((columnsOf cells).map (spanOf cells)).foldr max 0

/-- Every cell decodes to a value that is there. -/
def PresentCells (env : Env) (binary : Bool) (shared : List (Option Str)) (cs : List Cell) : Prop :=
  ∀ c ∈ cs, ∃ v, rawValue env binary shared c.xdt c.val = some (some v)

/-! ## Headers -/

/-- The text of header cell `(j, i)` (column, row) after filling: that of the nearest column at `j` or to its left
with a text at row `i` or above. -/
def filledCell (H : List (List (Option Str))) (j i : Nat) : Option Str :=
  match (H.take (j + 1)).reverse.find? fun col => (col.take (i + 1)).any Option.isSome with
  | some col => (col[i]?).join
  | none => none

/-- Comma-separated non-empty texts, or `Unnamed`. -/
def commaJoin (l : List (Option Str)) : Str :=
  match l.reduceOption.filter (· ≠ []) with
  | [] => unnamed
  | t => commaSpace.intercalate t

/-- The name of column `j` under a header of `n` rows. -/
def headName (H : List (List (Option Str))) (n j : Nat) : Str :=
  if (H.getD j []).any Option.isSome then commaJoin ((List.range n).map (filledCell H j)) else unnamed

/-- The header cells. -/
def headGrid (env : Env) (o : ConcatOpts) (binary : Bool) (shared : List (Option Str)) (cells : List Cell) (row n : Nat) :
    List (List (Option Str)) :=
  (columnsOf cells).map fun k => headTexts env o (window (colValues env binary shared cells k) row n)

/-! ## Tables -/

/-- The header row found by `lookup_head`: the first row with a cell in the given column; the first row with a match
in the first column (in reading order) with a match. -/
def lookupRow (env : Env) (o : ConcatOpts) (values : Int → List (Option Val)) (keys : List Int) (size : Nat)
    (search : Str → Option (Str → Bool)) : Lookup → Py (Option Nat)
  | .none => .ok (some 0)
  | .column k => if k ∈ keys then .ok ((window (values k) 0 size).findIdx? Option.isSome) else .error .keyError
  | .pattern p =>
    match search p with
    | none => .error .arrowInvalid
    | some f => .ok (keys.findSome? fun k => (headTexts env o (window (values k) 0 size)).findIdx? (Option.any f))

/-- The rows present in a column for a filter. -/
def presentRows (env : Env) (o : ConcatOpts) (cells : List (Option Val)) : List Bool :=
  (fetched env o cells).vals.map present

/-- Number of header rows taken from the sheet. -/
def HeaderArg.height : HeaderArg → Int
  | .rows n => n
  | .names _ => 0

/-- The names of the columns. -/
def namesFor (env : Env) (o : ConcatOpts) (grid : Int → List (Option Val)) (keys : List Int) (row : Nat) :
    HeaderArg → Py (List Str)
  | .rows n =>
    if n = 0 then .ok ((List.range keys.length).map fun i => unnamedDot ++ pyStr i)
    else .ok ((List.range keys.length).map
      (headName (keys.map fun k => headTexts env o (window (grid k) row n.toNat)) n.toNat))
  | .names l => if l.length ≠ keys.length then .error .valueError else .ok l

/-- Names and rows give the table. -/
def tableOf {A D : Type} (env : Env) (lib : Lib A D) (o : ConcatOpts) (grid : Int → List (Option Val)) (keys : List Int)
    (names : List Str) (dtypes : DtypesArg D) (off len : Nat) (m : Option (List Bool)) : Py (Table A) :=
  match applyDtypes lib names (keys.map fun k => lib.ofFetched (.arr (fetched env o (pickRows (grid k) off len m))))
      dtypes with
  | .error e => .error e
  | .ok arrays => makeTable lib names arrays

/-- The mask of the rows to keep. -/
def maskFor (env : Env) (o : ConcatOpts) (grid : Int → List (Option Val)) (filters : List Int) (strategy : Strategy)
    (off len : Nat) : Py (Option (List Bool)) :=
  if filters.isEmpty then .ok none
  else
    match combineFilters strategy (filters.map fun k => presentRows env o (window (grid k) off len)) with
    | .error e => .error e
    | .ok m => if trueCount m = 0 then .error .valueError else .ok (some m)

/-- The table of a sheet: `values k` are the cells of column `k`, `order` are the columns in reading order and `keys`
left to right, `span` is the number of rows counted from row 0.  No state is involved. -/
def sheetTable {A D : Type} (env : Env) (lib : Lib A D) (search : Str → Option (Str → Bool))
    (reMatch : Str → Str → Py Bool) (args : ReadArgs D) (o : ConcatOpts) (values : Int → List (Option Val))
    (order keys : List Int) (span : Int) : Py (Table A) :=
  match lookupRow env o values order args.lookupSize.toNat search args.lookup with
  | .error e => .error e
  | .ok none => .error .valueError
  | .ok (some row) =>
    match namesFor env o values keys row args.header with
    | .error e => .error e
    | .ok names =>
      match filterKeys reMatch names keys args.filters with
      | .error e => .error e
      | .ok fs =>
        let off := (args.header.height + row + args.skipAfter).toNat
        let len := (span - row - args.header.height - args.skipAfter).toNat
        match maskFor env o values fs args.strategy off len with
        | .error e => .error e
        | .ok m => tableOf env lib o values keys names args.dtypes off len m

/-! ## Arrow arrays and types -/

/-- Rows of a fetched array. -/
def Fetched.rows : Fetched → Nat
  | .nulls n => n
  | .arr a => a.vals.length

/-- Arrays keep their length when cast. -/
structure Lib.Lawful {A D : Type} (lib : Lib A D) : Prop where
  of : ∀ f, lib.len (lib.ofFetched f) = f.rows
  cast : ∀ a d b, lib.cast a d = some b → lib.len b = lib.len a

/-- The type asked for column `j`. -/
def wantedType {D : Type} (names : List Str) (j : Nat) : DtypesArg D → Option D
  | .none => none
  | .single d => some d
  | .mapping l => (names[j]?).bind fun n => (l.find? fun q => q.1 = n).map (·.2)
  | .sequence l => l[j]?

/-- An array with the type asked for; `none` if that cannot be. -/
def retyped {A D : Type} (lib : Lib A D) (a : A) : Option D → Option A
  | none => some a
  | some d => if lib.arrId a = lib.typeId d then some a else lib.cast a d

end Rxls
