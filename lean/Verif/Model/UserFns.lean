import Verif.Model.ReadXlsb
import Verif.Model.ReadXlsx

/-!
# Functions of the caller that raise

`Model/Xlsx.lean` and `Model/Xlsb.lean` take the null test as a function that returns and only note where `row_callback` is
called.  Here the two may raise: `null s` is what the null test does on the text `s`, `cb k` is the exception raised by call
number `k` of `row_callback`, if it raises.  The other parts of the readers are as there.
-/

namespace Rxls

/-! ## XLSX -/

/-- `cell_th` (`xlsx.py:349-385`) with a null test that may raise. -/
def xlsxTextU (null : Str → Py Bool) (skip : Nat) (skipCols : List Int) (st : XlsxState) (txt : Str) :
    Py (XlsxState × List Ev) :=
  if st.row < skip then .ok (st, [])
  else if st.lTag = some tagV ∧ pyStrip txt ≠ [] then
    match null (pyStrip txt) with
    | .error e => .error e
    | .ok true => .ok (st, [])
    | .ok false =>
      let col := colIdx (st.lCol.flatMap String.utf8EncodeChar)
      if skipCols.isEmpty ∨ skipCols.contains col = false then
        .ok ({ st with empty := false }, [.cell ⟨st.cRow - skip, col, st.cTyp, .text (pyStrip txt)⟩])
      else .ok (st, [])
  else .ok (st, [])

/-- The worker (`xlsx.py:289-437`) from `parser.ParseFile` on; `k` is the number of calls of `row_callback` so far.  Whatever
a handler raises leaves `ParseFile`, and the `finally` clause puts the sentinel. -/
def runXlsxU (styles : List (Str × Nat)) (null : Str → Py Bool) (cb : Nat → Option PyErr) (o : SheetArgs) (bad : Bool) :
    Nat → List Xml → XlsxState → List Ev × Exit
  | _, [], _ => ([], if bad then .died .runtimeError else .finished)
  | k, .start tag attrs :: es, st =>
    match xlsxStart styles o.skipRows st tag attrs with
    | .error e => ([], .died e)
    | .ok st' => runXlsxU styles null cb o bad k es st'
  | k, .text txt :: es, st =>
    match xlsxTextU null o.skipRows o.skipCols st txt with
    | .error e => ([], .died e)
    | .ok p =>
      let r := runXlsxU styles null cb o bad k es p.1
      (p.2 ++ r.1, r.2)
  | k, .close tag :: es, st =>
    let p := xlsxEnd o.keepEmpty st tag
    if p.2.1 = [] then runXlsxU styles null cb o bad k es p.1
    else
      match cb k with
      | some e => ([], .died e)
      | none =>
        if p.2.2 then (p.2.1, .stopped)
        else
          let r := runXlsxU styles null cb o bad (k + 1) es p.1
          (p.2.1 ++ r.1, r.2)

/-- `iter_worksheet` (`xlsx.py:287-460`).  The first call of `row_callback` (`xlsx.py:320-322`) is not inside of the `try`
statement (`xlsx.py:425-437`): if it raises, the thread ends without the sentinel, and `o_q.get` (`xlsx.py:460`) waits for
ever (`none`). -/
def xlsxSheetU (styles : List (Str × Nat)) (null : Str → Py Bool) (cb : Nat → Option PyErr) (o : SheetArgs) (doc : XmlDoc) :
    Option (List Ev × Exit) :=
  match cb 0 with
  | some _ => none
  | none =>
    let r := runXlsxU styles null cb o doc.bad 1 doc.events { take := o.takeRows + o.skipRows }
    some (.callback :: r.1, r.2)

/-- `read` on an XLSX file (see `readXlsx`) with a `row_callback` that may raise; `none`: it does not return.
(`rxls/reader/common.py:156-339` and `rxls/reader/xlsx.py:255-460`.) -/
def readXlsxU {A D : Type} (env : Env) (lib : Lib A D) (search : Str → Option (Str → Bool))
    (reMatch : Str → Str → Py Bool) (toInt : Str → Option Int) (isNull : Str → Bool) (cb : Nat → Option PyErr)
    (o : ConcatOpts) (ia : IterArgs) (args : ReadArgs D) (f : XlsxFile) : Option (Py (Table A)) :=
  match xlsxSheets f.rels f.workbook with
  | .error e => some (.error e)
  | .ok sheets =>
    match selectSheet sheets ia.sheet with
    | .error e => some (.error e)
    | .ok path =>
      match checkRows ia.skipRows ia.takeRows with
      | .error e => some (.error e)
      | .ok (skip, take) =>
        match openPart (f.parts path) with
        | .error e => some (.error e)
        | .ok doc =>
          match f.formats toInt with
          | .error e => some (.error e)
          | .ok styles =>
            match xlsxSheetU styles (fun s => .ok (isNull s)) cb ⟨skip, take, ia.keepEmpty, ia.skipCols⟩ doc with
            | none => none
            | some r =>
              let cells := r.1.filterMap Ev.cell?
              if cells.isEmpty then some (.error .valueError)
              else
                match f.strings isNull with
                | .error e => some (.error e)
                | .ok (shared, _) =>
                  some (readCells env lib search reMatch args { shared := shared, binary := false, opts := o } cells)

/-! ## XLSB -/

/-- One cell record (`xlsb.py:252-301`) with a null test that may raise. -/
def xlsbCellU (styles : List Bytes) (null : Str → Py Bool) (nullShared : List Bytes) (skipCols : List Int)
    (r : Record) : Py (Option (Int × Nat × Raw)) :=
  match unpackI (pySlice r.data 0 4) with
  | .error e => .error e
  | .ok n =>
    let col : Int := n
    if !skipCols.isEmpty && skipCols.contains col then .ok none
    else
      let adv := if styles.contains (pySlice r.data 4 7) then REPR_TEMPORAL else 0
      if r.recId = 6 ∨ r.recId = 8 then
        match unpackI (pySlice r.data 8 12) with
        | .error e => .error e
        | .ok n =>
          match decodeUtf16 (pySlice r.data 12 (n * 2 + 12)) with
          | .error e => .error e
          | .ok s =>
            match null s with
            | .error e => .error e
            | .ok true => .ok none
            | .ok false => .ok (some (col, TYPE_STRING ||| REPR_PREPARED, .text s))
      else if r.recId = 5 ∨ r.recId = 9 then
        .ok (some (col, TYPE_NUMERIC ||| (if adv ≠ 0 then adv else REPR_PREPARED), .bytes (pySlice r.data 8 16)))
      else if r.recId = 4 ∨ r.recId = 10 then
        .ok (some (col, TYPE_NUMERIC ||| REPR_BOOLEAN, .bytes (pySlice r.data 8 9)))
      else if r.recId = 7 then
        if nullShared.contains (pySlice r.data 8 12) then .ok none
        else .ok (some (col, TYPE_STRING ||| REPR_SHARED, .bytes (pySlice r.data 8 12)))
      else .ok (some (col, TYPE_NUMERIC ||| REPR_RKNUMBER ||| adv, .bytes (pySlice r.data 8 12)))

/-- The loop of `XlsbWorkbook.iter_worksheet` (`xlsb.py:228-303`), which runs in the thread of the caller; `k` is the number
of calls of `row_callback` so far. -/
def iterXlsbU (styles : List Bytes) (null : Str → Py Bool) (cb : Nat → Option PyErr) (nulls : Bool → List Bytes)
    (o : SheetArgs) : Nat → List Record → XlsbState → Py (List Ev)
  | _, [], _ => .ok []
  | k, r :: rs, st =>
    if r.recId = 0 then
      let row := if !st.empty || o.keepEmpty then st.row + 1 else st.row
      if 0 < o.takeRows + o.skipRows ∧ ((o.takeRows + o.skipRows : Nat) : Int) < row then .ok []
      else if (o.skipRows : Int) ≤ row then
        match cb k with
        | some e => .error e
        | none =>
          match iterXlsbU styles null cb nulls o (k + 1) rs { st with row := row, empty := true } with
          | .error e => .error e
          | .ok evs => .ok (.callback :: evs)
      else iterXlsbU styles null cb nulls o k rs { st with row := row, empty := true }
    else if (o.skipRows : Int) > st.row then iterXlsbU styles null cb nulls o k rs st
    else if r.recId = 402 then
      match cb k with
      | some e => .error e
      | none => .ok [.callback]
    else
      match xlsbCellU styles null (nulls st.seen) o.skipCols r with
      | .error e => .error e
      | .ok none => iterXlsbU styles null cb nulls o k rs st
      | .ok (some (col, xdt, v)) =>
        match iterXlsbU styles null cb nulls o k rs { st with empty := false, seen := true } with
        | .error e => .error e
        | .ok evs => .ok (.cell ⟨(st.row - o.skipRows).toNat, col, xdt, v⟩ :: evs)

/-- `read` on an XLSB file (see `readXlsb`) with a `row_callback` that may raise.  A StopIteration that leaves the generator
becomes a RuntimeError.  If both the callback and the adding of a cell to its column raise, the exception taken here is that
of the callback.  (`rxls/reader/common.py:156-339` and `rxls/reader/xlsb.py:180-303`.) -/
def readXlsbU {A D : Type} (env : Env) (lib : Lib A D) (search : Str → Option (Str → Bool))
    (reMatch : Str → Str → Py Bool) (isNull : Str → Bool) (cb : Nat → Option PyErr) (o : ConcatOpts) (ia : IterArgs)
    (args : ReadArgs D) (f : XlsbFile) : Py (Table A) :=
  match xlsbSheets f.rels f.workbook with
  | .error e => .error (leaveGenerator e)
  | .ok sheets =>
    match selectSheet sheets ia.sheet with
    | .error e => .error e
    | .ok path =>
      match checkRows ia.skipRows ia.takeRows with
      | .error e => .error e
      | .ok (skip, take) =>
        match openPart (f.parts path) with
        | .error e => .error e
        | .ok part =>
          match f.temporal with
          | .error e => .error e
          | .ok styles =>
            match f.strings isNull with
            | .error e => .error e
            | .ok (shared, nulls) =>
              match iterXlsbU styles (fun s => .ok (isNull s)) cb (fun seen => if seen then nulls else [])
                  ⟨skip, take, ia.keepEmpty, ia.skipCols⟩ 0 (scanBiff (some sheetIds) part) {} with
              | .error e => .error (leaveGenerator e)
              | .ok evs =>
                readCells env lib search reMatch args { shared := shared, binary := true, opts := o }
                  (evs.filterMap Ev.cell?)

end Rxls
