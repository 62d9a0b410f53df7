import Verif.Spec.HGrid

/-!
# What is read before a column is read

A run of shared strings is a run of references until it is first read in one piece; the references are then replaced
by the texts, for good.  Temporal resolution can convert texts but not references: it raises
`ArrowNotImplementedError`.  So whether a table can be read depends on what the lookup of the header, the header itself
and the filters have read before.
-/

namespace Rxls

/-- A reading of a column: a window, or a window and a mask. -/
structure Reading where
  col : Int
  off : Nat
  len : Nat
  mask : Option (List Bool)
  deriving DecidableEq, Repr

/-- The runs of shared strings (kind 0x11) of a column. -/
def sharedRuns {α : Type} (column : List (Option (Nat × α))) : List Nat :=
  (List.zipWith (fun n r => if r.map (·.1) = some 0x11 then some n else none) (runNumbers 0 none column)
    column).reduceOption

/-- A column: its rows, and its runs of shared strings. -/
structure HCol where
  rows : List (Option (Nat × Option Val))
  shared : List Nat

/-- The reading has all rows of run `j`, with nothing in between left out. -/
def Reading.covers (rows : List (Option (Nat × Option Val))) (j : Nat) (w : Reading) : Bool :=
  w.mask.isNone && rows.zipIdx.all fun r => !r.1.any (·.1 == j) || (decide (w.off ≤ r.2) && decide (r.2 < w.off + w.len))

/-- A reading fails: among the cells are a moment and a shared string that no reading so far has looked up, and
temporal resolution is on. -/
def HCol.clash (o : ConcatOpts) (c : HCol) (done : List Reading) (w : Reading) : Bool :=
  let picked := pickRows c.rows w.off w.len w.mask
  o.confDt && (heldCells picked).any isTs &&
    picked.any fun r => r.any fun x => c.shared.contains x.1 && !done.any (Reading.covers c.rows x.1)

/-- One of these readings fails, after others. -/
def clashIn (o : ConcatOpts) (sheet : Int → HCol) : List Reading → List Reading → Bool
  | _, [] => false
  | done, w :: ws => (sheet w.col).clash o (done.filter (·.col = w.col)) w || clashIn o sheet (w :: done) ws

/-- The elements up to the first with `p`. -/
def upTo {α : Type} (p : α → Bool) : List α → List α
  | [] => []
  | x :: l => if p x then [x] else x :: upTo p l

/-- What looking for the header reads. -/
def lookupReadings (env : Env) (grid : Int → View) (keys : List Int) (size : Nat)
    (search : Str → Option (Str → Bool)) : Lookup → List Reading
  | .none => []
  | .column k => if k ∈ keys then [⟨k, 0, size, none⟩] else []
  | .pattern s =>
    match search s with
    | none => []
    | some f => (upTo (fun k => (arrTexts env (grid k 0 size none)).any (Option.any f)) keys).map fun k =>
        ⟨k, 0, size, none⟩

/-- What the names of the columns are read from. -/
def headerReadings (keys : List Int) (row : Nat) : HeaderArg → List Reading
  | .rows n => if n = 0 then [] else keys.map fun k => ⟨k, row, n.toNat, none⟩
  | .names _ => []

/-- What `read` reads of the columns, in this order; a window without rows does not count. -/
def sheetReadings {D : Type} (env : Env) (search : Str → Option (Str → Bool)) (reMatch : Str → Str → Py Bool)
    (args : ReadArgs D) (grid : Int → View) (order keys : List Int) (span : Int) : List Reading :=
  lookupReadings env grid order args.lookupSize.toNat search args.lookup ++
  match lookupRowV env grid order args.lookupSize.toNat search args.lookup with
  | .ok (some row) =>
    headerReadings keys row args.header ++
    match namesForV env grid keys row args.header with
    | .ok names =>
      match filterKeys reMatch names keys args.filters with
      | .ok fs =>
        let off := (args.header.height + row + args.skipAfter).toNat
        let len := (span - row - args.header.height - args.skipAfter).toNat
        if len = 0 then []
        else
          fs.map (fun k => ⟨k, off, len, none⟩) ++
          match maskForV grid fs args.strategy off len with
          | .ok m => keys.map fun k => ⟨k, off, len, m⟩
          | .error _ => []
      | .error _ => []
    | .error _ => []
  | _ => []

/-- The table of these columns; without data rows, `ValueError`. -/
def sheetResult {A D : Type} (env : Env) (lib : Lib A D) (search : Str → Option (Str → Bool))
    (reMatch : Str → Str → Py Bool) (args : ReadArgs D) (grid : Int → View) (order keys : List Int) (span : Int) :
    Py (Table A) :=
  match lookupRowV env grid order args.lookupSize.toNat search args.lookup with
  | .error e => .error e
  | .ok none => .error .valueError
  | .ok (some row) =>
    if 0 < span - row - args.header.height - args.skipAfter then
      sheetTableV env lib search reMatch args grid order keys span
    else
      match namesForV env grid keys row args.header with
      | .error e => .error e
      | .ok names =>
        match filterKeys reMatch names keys args.filters with
        | .error e => .error e
        | .ok _ => .error .valueError

/-- There is a data row below the header, or else one of the columns that are read first (those with filters, or all)
ends at the header; `ends k off` is for the columns without rows from `off` on. -/
def DataOrEnd {D : Type} (env : Env) (search : Str → Option (Str → Bool)) (reMatch : Str → Str → Py Bool)
    (args : ReadArgs D) (grid : Int → View) (order keys : List Int) (span : Int) (ends : Int → Nat → Prop) : Prop :=
  ∀ row : Nat, lookupRowV env grid order args.lookupSize.toNat search args.lookup = .ok (some row) →
    0 < span - row - args.header.height - args.skipAfter ∨
    ∀ names fs, namesForV env grid keys row args.header = .ok names → filterKeys reMatch names keys args.filters = .ok fs →
      ∃ k ∈ if fs.isEmpty then keys else fs, ends k (args.header.height + row + args.skipAfter).toNat

/-- The columns of a list of cells. -/
def cellCols (env : Env) (binary : Bool) (shared : List (Option Str)) (cells : List Cell) : Int → HCol :=
  fun k => ⟨heldRows env binary shared (rawColumn (colCells cells k)), sharedRuns (rawColumn (colCells cells k))⟩

/-- The columns of a sheet. -/
def HGrid.cols (g : HGrid) : Int → HCol := fun k => ⟨g.rows k, sharedRuns (g.column k)⟩

/-- Reading the sheet, temporal resolution meets shared strings that have not been looked up. -/
def HGrid.clashes {D : Type} (env : Env) (search : Str → Option (Str → Bool)) (reMatch : Str → Str → Py Bool)
    (args : ReadArgs D) (o : ConcatOpts) (g : HGrid) : Bool :=
  clashIn o g.cols [] (sheetReadings env search reMatch args (g.view env o) g.shape.seen g.shape.columns g.shape.maxSpan)

/-- There is a data row below the header, or one of the columns that are read first ends at the header. -/
def HGrid.DataOrEnd {D : Type} (env : Env) (search : Str → Option (Str → Bool)) (reMatch : Str → Str → Py Bool)
    (args : ReadArgs D) (o : ConcatOpts) (g : HGrid) : Prop :=
  Rxls.DataOrEnd env search reMatch args (g.view env o) g.shape.seen g.shape.columns g.shape.maxSpan
    fun k off => ∀ i, off ≤ i → g.at k i = none

/-- What `read` gives for a sheet. -/
def HGrid.outcome {A D : Type} (env : Env) (lib : Lib A D) (search : Str → Option (Str → Bool))
    (reMatch : Str → Str → Py Bool) (args : ReadArgs D) (o : ConcatOpts) (g : HGrid) : Py (Table A) :=
  if g.flatten = [] then .error .valueError
  else if g.clashes env search reMatch args o then .error .arrowNotImplemented
  else sheetResult env lib search reMatch args (g.view env o) g.shape.seen g.shape.columns g.shape.maxSpan

end Rxls
