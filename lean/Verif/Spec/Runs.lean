import Verif.Spec.Read

/-!
# Conflict resolution, run by run

The rows of a column carry the number of their run (`numberedRows`).  Conflict resolution converts whole runs.
-/

namespace Rxls

/-- The cells without the numbers. -/
def plainCells (rows : List (Option (Nat × Val))) : List (Option Val) := rows.map (Option.map (·.2))

/-- The cells of run `j`. -/
def runCells (rows : List (Option (Nat × Val))) (j : Nat) : List (Option Val) :=
  plainCells (rows.filter fun r => r.any (·.1 == j))

/-- The cells of the runs up to `j`. -/
def cellsUpTo (rows : List (Option (Nat × Val))) (j : Nat) : List (Option Val) :=
  plainCells (rows.filter fun r => r.any (·.1 ≤ j))

/-- Conflict resolution.  Beside moments (if asked for): numbers become moments, and a run of texts becomes moments if
all its texts are moments, else if all are numbers (and numbers are wanted).  Beside numbers (if asked for): runs of
texts become numbers, top to bottom, up to the first run with a text that is no number. -/
def resolvedRuns (env : Env) (o : ConcatOpts) (rows : List (Option (Nat × Val))) : List (Option Val) :=
  if (plainCells rows).any isTs then
    if o.confDt then rows.map (Option.map fun r => asMoment env o (runCells rows r.1) r.2) else plainCells rows
  else if o.confNum && (plainCells rows).any isNum then
    rows.map (Option.map fun r => if numericTexts env (cellsUpTo rows r.1) then asNumber env r.2 else r.2)
  else plainCells rows

/-- The array of a column with these rows. -/
def fetchedRuns (env : Env) (o : ConcatOpts) (rows : List (Option (Nat × Val))) : Arr :=
  materialise env o.prec (resolvedRuns env o rows)

/-- Temporal resolution meets no shared strings.  (It raises `ArrowNotImplementedError` for them, unless they were
looked up before.) -/
def Datable (o : ConcatOpts) (inline : Bool) (cells : List (Option Val)) : Prop :=
  o.confDt = true → cells.any isTs = true → cells.any isText = false ∨ inline = true

/-! ## Tables over any way to read columns -/

/-- What reading a window of a column, or a window and a mask, gives. -/
abbrev View := Nat → Nat → Option (List Bool) → Arr

/-- The texts of an array. -/
def arrTexts (env : Env) (a : Arr) : List (Option Str) := a.vals.map (Option.map (cellText env))

/-- `lookupRow` over views. -/
def lookupRowV (env : Env) (grid : Int → View) (keys : List Int) (size : Nat) (search : Str → Option (Str → Bool)) :
    Lookup → Py (Option Nat)
  | .none => .ok (some 0)
  | .column k => if k ∈ keys then .ok ((grid k 0 size none).vals.findIdx? Option.isSome) else .error .keyError
  | .pattern p =>
    match search p with
    | none => .error .arrowInvalid
    | some f => .ok (keys.findSome? fun k => (arrTexts env (grid k 0 size none)).findIdx? (Option.any f))

/-- `namesFor` over views. -/
def namesForV (env : Env) (grid : Int → View) (keys : List Int) (row : Nat) : HeaderArg → Py (List Str)
  | .rows n =>
    if n = 0 then .ok ((List.range keys.length).map fun i => unnamedDot ++ pyStr i)
    else .ok ((List.range keys.length).map
      (headName (keys.map fun k => arrTexts env (grid k row n.toNat none)) n.toNat))
  | .names l => if l.length ≠ keys.length then .error .valueError else .ok l

/-- `tableOf` over views. -/
def tableOfV {A D : Type} (lib : Lib A D) (grid : Int → View) (keys : List Int) (names : List Str)
    (dtypes : DtypesArg D) (off len : Nat) (m : Option (List Bool)) : Py (Table A) :=
  match applyDtypes lib names (keys.map fun k => lib.ofFetched (.arr (grid k off len m))) dtypes with
  | .error e => .error e
  | .ok arrays => makeTable lib names arrays

/-- `maskFor` over views. -/
def maskForV (grid : Int → View) (filters : List Int) (strategy : Strategy) (off len : Nat) :
    Py (Option (List Bool)) :=
  if filters.isEmpty then .ok none
  else
    match combineFilters strategy (filters.map fun k => (grid k off len none).vals.map present) with
    | .error e => .error e
    | .ok m => if trueCount m = 0 then .error .valueError else .ok (some m)

/-- `sheetTable` over views. -/
def sheetTableV {A D : Type} (env : Env) (lib : Lib A D) (search : Str → Option (Str → Bool))
    (reMatch : Str → Str → Py Bool) (args : ReadArgs D) (grid : Int → View) (order keys : List Int) (span : Int) :
    Py (Table A) :=
  match lookupRowV env grid order args.lookupSize.toNat search args.lookup with
  | .error e => .error e
  | .ok none => .error .valueError
  | .ok (some row) =>
    match namesForV env grid keys row args.header with
    | .error e => .error e
    | .ok names =>
      match filterKeys reMatch names keys args.filters with
      | .error e => .error e
      | .ok fs =>
        let off := (args.header.height + row + args.skipAfter).toNat
        let len := (span - row - args.header.height - args.skipAfter).toNat
        match maskForV grid fs args.strategy off len with
        | .error e => .error e
        | .ok m => tableOfV lib grid keys names args.dtypes off len m

/-- Columns read as if conflict resolution were a matter of values alone. -/
def plainView (env : Env) (o : ConcatOpts) (values : Int → List (Option Val)) : Int → View :=
  fun k off len m => fetched env o (pickRows (values k) off len m)

/-- Columns read with conflict resolution run by run. -/
def runsView (env : Env) (o : ConcatOpts) (binary : Bool) (shared : List (Option Str)) (cells : List Cell) : Int → View :=
  fun k off len m => fetchedRuns env o (pickRows (numberedRows env binary shared (rawColumn (colCells cells k))) off len m)

end Rxls
