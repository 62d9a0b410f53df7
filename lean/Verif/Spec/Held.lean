import Verif.Spec.Runs

/-!
# Cells without a text

A reference to a shared string may lead to nothing: null values and, in XLSX, empty entries are stored as `None`.
Such a cell is empty, but it is a text as far as the type of the column is concerned, and it becomes the number 0 where
texts become numbers.  The rows of a column are `none` (no cell), `some (j, none)` (a cell of run `j` without a text)
or `some (j, some v)`.
-/

namespace Rxls

/-- The rows of a column, each cell with the number of its run. -/
def heldRows (env : Env) (binary : Bool) (shared : List (Option Str)) (rows : List (Option (Nat × Raw))) :
    List (Option (Nat × Option Val)) :=
  List.zipWith (fun n r => r.map fun c => (n, (rawValue env binary shared c.1 c.2).join)) (runNumbers 0 none rows) rows

/-- What the rows show. -/
def heldCells (rows : List (Option (Nat × Option Val))) : List (Option Val) := rows.map fun r => r.bind (·.2)

/-- The cells of run `j`. -/
def runHeld (rows : List (Option (Nat × Option Val))) (j : Nat) : List (Option Val) :=
  (rows.reduceOption.filter (·.1 == j)).map (·.2)

/-- The cells of the runs up to `j`. -/
def heldUpTo (rows : List (Option (Nat × Option Val))) (j : Nat) : List (Option Val) :=
  (rows.reduceOption.filter (·.1 ≤ j)).map (·.2)

/-- The number a cell stands for; 0 for a missing text. -/
def heldNumber (env : Env) : Option Val → Val
  | none => .f8 (.fin 0)
  | some v => asNumber env v

/-- The moment the library makes of a null among texts, if any. -/
def missingMoment (env : Env) (o : ConcatOpts) : Option Int :=
  (if o.formats = [] then env.formats else o.formats).findSome? fun f =>
    (env.strptime f none).bind fun v => if timeOfDay v = 0 then none else some (timeOfDay v)

/-- The cells of a run, missing texts included, all read as moments. -/
def heldMoments (env : Env) (o : ConcatOpts) (run : List (Option Val)) : Bool :=
  momentTexts env o run && (run.all Option.isSome || (missingMoment env o).isSome)

/-- `asMoment`, with missing texts: they count as the number 0. -/
def heldMoment (env : Env) (o : ConcatOpts) (run : List (Option Val)) : Option Val → Option Val
  | some (.f8 x) => some (.ts (f8ToMsWin x))
  | some (.str s) =>
    if heldMoments env o run then some (.ts ((textMoment env o s).getD 0))
    else if o.confNum && numericTexts env run then some (.ts (f8ToMsWin ((env.parseF8 s).getD (.fin 0))))
    else some (.str s)
  | none =>
    if heldMoments env o run then some (.ts ((missingMoment env o).getD 0))
    else if o.confNum && numericTexts env run then some (.ts (f8ToMsWin (.fin 0)))
    else none
  | v => v

/-- `resolvedRuns`, with missing texts. -/
def resolvedHeld (env : Env) (o : ConcatOpts) (rows : List (Option (Nat × Option Val))) : List (Option (Option Val)) :=
  if (heldCells rows).any isTs then
    if o.confDt then rows.map (Option.map fun r => heldMoment env o (runHeld rows r.1) r.2)
    else rows.map (Option.map (·.2))
  else if o.confNum && (heldCells rows).any isNum then
    rows.map (Option.map fun r => if numericTexts env (heldUpTo rows r.1) then some (heldNumber env r.2) else r.2)
  else rows.map (Option.map (·.2))

/-- A missing text. -/
def isMissing : Option (Option Val) → Bool
  | some none => true
  | _ => false

/-- `columnType`, with missing texts: they make the column text. -/
def heldType (prec : Nat) (cells : List (Option (Option Val))) : DType :=
  if cells.any isMissing then .utf8 else columnType prec (cells.map Option.join)

/-- The array of a column with these rows. -/
def fetchedHeld (env : Env) (o : ConcatOpts) (rows : List (Option (Nat × Option Val))) : Arr :=
  let cells := resolvedHeld env o rows
  ⟨heldType o.prec cells, cells.map fun c => c.join.map (rendered env (heldType o.prec cells))⟩

/-- Temporal resolution meets no shared strings. -/
def HeldDatable (o : ConcatOpts) (inline : Bool) (rows : List (Option (Nat × Option Val))) : Prop :=
  o.confDt = true → (heldCells rows).any isTs = true →
    (∀ j v, some (j, v) ∈ rows → v ≠ none ∧ isText v = false) ∨ inline = true

/-- Columns read with conflict resolution run by run, with missing texts. -/
def heldView (env : Env) (o : ConcatOpts) (binary : Bool) (shared : List (Option Str)) (cells : List Cell) : Int → View :=
  fun k off len m => fetchedHeld env o (pickRows (heldRows env binary shared (rawColumn (colCells cells k))) off len m)

end Rxls
