import Verif.Model.ReadFile

/-!
# `read` when numba is installed

`scan_biff` and `col_idx` are then the compiled ones (`rxls/biff.py:110-210`, `rxls/reader/xlsx.py:76-79`); the rest of
the reader is the same code.  `none` stands for a call that has not returned after `n` iterations of the loop of
`scan_biff`.
-/

namespace Rxls

/-- Next step of a computation that may not have returned.  (`rxls/biff.py:200-210`.) -/
def afterwards {α β : Type} (x : Option (Py α)) (f : α → Option (Py β)) : Option (Py β) :=
  match x with
  | none => none
  | some (.error e) => some (.error e)
  | some (.ok a) => f a

/-- A consumer of all records, `r` being its result on those yielded so far: an exception comes at once, a result only
when the scanner has finished.  (`rxls/biff.py:205-210`.) -/
def whenDone {α : Type} (r : Py α) (fin : Bool) : Option (Py α) :=
  match r with
  | .error e => some (.error e)
  | .ok a => if fin then some (.ok a) else none

/-- `XlsbWorkbook.sheets` (`xlsb.py:101-121`). -/
def xlsbSheetsNumba (n : Nat) (rels : List Relationship) (workbook : Bytes) : Option (Py (List (Str × Str))) :=
  let s := numbaRun numbaBlock (some [412]) n [] workbook
  whenDone (xlsbSheetsFrom rels [] s.1) s.2

/-- `XlsbWorkbook.shared` (`xlsb.py:123-138`). -/
def xlsbSharedNumba (n : Nat) (isNull : Str → Bool) (part : Bytes) : Option (Py (List (Option Str) × List Bytes)) :=
  let s := numbaRun numbaBlock (some [19]) n [] part
  whenDone (sharedFrom isNull 0 s.1) s.2

/-- `XlsbWorkbook.styles` (`xlsb.py:140-178`). -/
def xlsbStylesNumba (n : Nat) (part : Bytes) : Option (Py (List Bytes)) :=
  let s := numbaRun numbaBlock (some [47]) n [] part
  afterwards (whenDone (xfsFrom 0 s.1) s.2) fun xfs =>
    let t := numbaRun numbaBlock (some [44]) n [] part
    afterwards (whenDone (fmsOf t.1) t.2) fun fms =>
      match builtinStyles xfs with
      | .error e => some (.error e)
      | .ok b => some (.ok (customStyles xfs (dictOf fms) ++ b))

/-- The loop of `XlsbWorkbook.iter_worksheet` (`xlsb.py:228-303`) as in `iterXlsb`; when the records run out and the
scanner has not finished (`fin`), the loop waits. -/
def iterXlsbNumba (styles : List Bytes) (isNull : Str → Bool) (nulls : Bool → List Bytes) (o : SheetArgs) (fin : Bool) :
    List Record → XlsbState → Option (Py (List Ev))
  | [], _ => if fin then some (.ok []) else none
  | r :: rs, st =>
    if r.recId = 0 then
      let row := if !st.empty || o.keepEmpty then st.row + 1 else st.row
      if 0 < o.takeRows + o.skipRows ∧ ((o.takeRows + o.skipRows : Nat) : Int) < row then some (.ok [])
      else
        afterwards (iterXlsbNumba styles isNull nulls o fin rs { st with row := row, empty := true }) fun evs =>
          some (.ok (if (o.skipRows : Int) ≤ row then .callback :: evs else evs))
    else if (o.skipRows : Int) > st.row then iterXlsbNumba styles isNull nulls o fin rs st
    else if r.recId = 402 then some (.ok [.callback])
    else
      match xlsbCell styles isNull (nulls st.seen) o.skipCols r with
      | .error e => some (.error e)
      | .ok none => iterXlsbNumba styles isNull nulls o fin rs st
      | .ok (some (col, xdt, v)) =>
        afterwards (iterXlsbNumba styles isNull nulls o fin rs { st with empty := false, seen := true }) fun evs =>
          some (.ok (.cell ⟨(st.row - o.skipRows).toNat, col, xdt, v⟩ :: evs))

/-- `iter_worksheet` on the bytes of a sheet part.  (`rxls/reader/xlsb.py:216-303`.) -/
def xlsbSheetNumba (n : Nat) (styles : List Bytes) (isNull : Str → Bool) (nulls : Bool → List Bytes) (o : SheetArgs)
    (part : Bytes) : Option (Py (List Ev)) :=
  let s := numbaRun numbaBlock (some sheetIds) n [] part
  iterXlsbNumba styles isNull nulls o s.2 s.1 {}

/-- `read` on an XLSB file (`common.py:156-339` with `xlsb.py:180-303`).  Simplified as `readXlsb` is: styles and shared
strings are read before the first cell, and an exception of a column while the sheet is still scanned is raised
after it. -/
def readXlsbNumba {A D : Type} (n : Nat) (env : Env) (lib : Lib A D) (search : Str → Option (Str → Bool))
    (reMatch : Str → Str → Py Bool) (isNull : Str → Bool) (o : ConcatOpts) (ia : IterArgs) (args : ReadArgs D)
    (f : XlsbFile) : Option (Py (Table A)) :=
  afterwards ((xlsbSheetsNumba n f.rels f.workbook).map (Except.mapError leaveGenerator)) fun sheets =>
  afterwards (some (selectSheet sheets ia.sheet)) fun path =>
  afterwards (some (checkRows ia.skipRows ia.takeRows)) fun rows =>
  afterwards (some (openPart (f.parts path))) fun part =>
  afterwards (some (openPart f.styles)) fun b =>
  afterwards (xlsbStylesNumba n b) fun styles =>
  afterwards (some (openPart f.shared)) fun b =>
  afterwards (xlsbSharedNumba n isNull b) fun sst =>
  afterwards (xlsbSheetNumba n styles isNull (fun seen => if seen then sst.2 else [])
    ⟨rows.1, rows.2, ia.keepEmpty, ia.skipCols⟩ part) fun evs =>
  some (readCells env lib search reMatch args { shared := sst.1, binary := true, opts := o } (evs.filterMap Ev.cell?))

/-- `cell_th` (`xlsx.py:349-385`) with the compiled `col_idx`; otherwise as `xlsxText`. -/
def xlsxTextNumba (isNull : Str → Bool) (skip : Nat) (skipCols : List Int) (st : XlsxState) (txt : Str) :
    XlsxState × List Ev :=
  if st.row < skip then (st, [])
  else if st.lTag = some tagV ∧ pyStrip txt ≠ [] then
    if isNull (pyStrip txt) then (st, [])
    else
      let col := colIdxNumba (st.lCol.flatMap String.utf8EncodeChar)
      if skipCols.isEmpty ∨ skipCols.contains col = false then
        ({ st with empty := false }, [.cell ⟨st.cRow - skip, col, st.cTyp, .text (pyStrip txt)⟩])
      else (st, [])
  else (st, [])

/-- The worker (`xlsx.py:289-437`), as `runXlsx`. -/
def runXlsxNumba (styles : List (Str × Nat)) (isNull : Str → Bool) (o : SheetArgs) (bad : Bool) :
    List Xml → XlsxState → List Ev × Exit
  | [], _ => ([], if bad then .died .runtimeError else .finished)
  | .start tag attrs :: es, st =>
    match xlsxStart styles o.skipRows st tag attrs with
    | .error e => ([], .died e)
    | .ok st' => runXlsxNumba styles isNull o bad es st'
  | .text txt :: es, st =>
    let p := xlsxTextNumba isNull o.skipRows o.skipCols st txt
    let r := runXlsxNumba styles isNull o bad es p.1
    (p.2 ++ r.1, r.2)
  | .close tag :: es, st =>
    let p := xlsxEnd o.keepEmpty st tag
    if p.2.2 then (p.2.1, .stopped)
    else
      let r := runXlsxNumba styles isNull o bad es p.1
      (p.2.1 ++ r.1, r.2)

/-- `read` on an XLSX file (`common.py:156-339` with `xlsx.py:255-460`), as `readXlsx`. -/
def readXlsxNumba {A D : Type} (env : Env) (lib : Lib A D) (search : Str → Option (Str → Bool))
    (reMatch : Str → Str → Py Bool) (toInt : Str → Option Int) (isNull : Str → Bool) (o : ConcatOpts) (ia : IterArgs)
    (args : ReadArgs D) (f : XlsxFile) : Py (Table A) :=
  match xlsxSheets f.rels f.workbook with
  | .error e => .error e
  | .ok sheets =>
    match selectSheet sheets ia.sheet with
    | .error e => .error e
    | .ok path =>
      match checkRows ia.skipRows ia.takeRows with
      | .error e => .error e
      | .ok (skip, take) =>
        match openPart (f.parts path) with
        | .error e => .error e
        | .ok doc =>
          match f.formats toInt with
          | .error e => .error e
          | .ok styles =>
            let evs := (runXlsxNumba styles isNull ⟨skip, take, ia.keepEmpty, ia.skipCols⟩ doc.bad doc.events
              { take := take + skip }).1
            let cells := (Ev.callback :: evs).filterMap Ev.cell?
            if cells.isEmpty then .error .valueError
            else
              match f.strings isNull with
              | .error e => .error e
              | .ok (shared, _) =>
                readCells env lib search reMatch args { shared := shared, binary := false, opts := o } cells

/-- `read` (`common.py:98-339`). -/
def readFileNumba {A D : Type} (n : Nat) (env : Env) (lib : Lib A D) (search : Str → Option (Str → Bool))
    (reMatch : Str → Str → Py Bool) (toInt : Str → Option Int) (a : FileArgs D) (p : Package) : Option (Py (Table A)) :=
  match fileKind p.names with
  | .error e => some (.error e)
  | .ok .xlsx =>
    some (readXlsxNumba env lib search reMatch toInt (skipPredicate errorStringsXlsx a.nulls)
      (concatOpts a.conflict a.formats a.precision) a.iter a.table p.xlsx)
  | .ok .xlsb =>
    readXlsbNumba n env lib search reMatch (skipPredicate errorStringsXlsb a.nulls)
      (concatOpts a.conflict a.formats a.precision) a.iter a.table p.xlsb

end Rxls
