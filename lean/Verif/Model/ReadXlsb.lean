import Verif.Model.Read
import Verif.Model.Xlsb

/-! # `read` on an XLSB file: all steps -/

namespace Rxls

/-- The parts of an XLSB package.  The relationships are those of `xl/_rels/workbook.bin.rels`, already parsed
(`Relationship.scan_xml`).  (`rxls/reader/xlsb.py:109-113,130,147,216`.) -/
structure XlsbFile where
  rels : List Relationship
  /-- `xl/workbook.bin` -/
  workbook : Bytes
  /-- `xl/sharedStrings.bin`, if it is there -/
  shared : Option Bytes
  /-- `xl/styles.bin`, if it is there -/
  styles : Option Bytes
  /-- the other parts by name -/
  parts : Str → Option Bytes

/-- The arguments of `read` that go to `iter_worksheet`.  `keepEmpty` is `take_rows_non_empty`.
(`rxls/reader/common.py:159-166`.) -/
structure IterArgs where
  sheet : SheetArg := .index 0
  skipRows : Int := 0
  takeRows : Int := 0
  keepEmpty : Bool := false
  skipCols : List Int := []

/-- The cell delivered, if the event is one.  (`rxls/reader/common.py:159-176`.) -/
def Ev.cell? : Ev → Option Cell
  | .cell c => some c
  | .callback => none

/-- `zf.open(name)`: KeyError when there is no such part.  (`rxls/reader/xlsb.py:109,112,130,147,216`.) -/
def openPart {α : Type} : Option α → Py α
  | some a => .ok a
  | none => .error .keyError

/-- `XlsbWorkbook.styles`, `XlsbWorkbook.shared` of a package.  (`rxls/reader/xlsb.py:123-178`.) -/
def XlsbFile.temporal (f : XlsbFile) : Py (List Bytes) :=
  match openPart f.styles with
  | .error e => .error e
  | .ok b => xlsbStyles b
@[inherit_doc XlsbFile.temporal] def XlsbFile.strings (isNull : Str → Bool) (f : XlsbFile) :
    Py (List (Option Str) × List Bytes) :=
  match openPart f.shared with
  | .error e => .error e
  | .ok b => xlsbShared isNull b

/-- `read` on an XLSB file (`common.py:156-339` with `xlsb.py:180-303`).  `isNull` is the predicate made from
`null_values`.  The styles and the shared strings are read here before the first cell; the code reads them at the first
cell record and at the first delivered cell, so in a sheet without cells a bad part goes unnoticed there (that sheet is
refused in any case).  `null_shared` is empty until the first cell has been delivered (see `iterXlsb`). -/
def readXlsb {A D : Type} (env : Env) (lib : Lib A D) (search : Str → Option (Str → Bool))
    (reMatch : Str → Str → Py Bool) (isNull : Str → Bool) (o : ConcatOpts) (ia : IterArgs) (args : ReadArgs D)
    (f : XlsbFile) : Py (Table A) :=
  match xlsbSheets f.rels f.workbook with
  | .error e => .error (leaveGenerator e)
  | .ok sheets =>
    match selectSheet sheets ia.sheet with
    | .error e => .error e
    | .ok path =>
      match checkRows ia.skipRows ia.takeRows with
      | .error e => .error e
      | .ok (skip, take) =>
        match openPart (f.parts path) with
        | .error e => .error e
        | .ok part =>
          match f.temporal with
          | .error e => .error e
          | .ok styles =>
            match f.strings isNull with
            | .error e => .error e
            | .ok (shared, nulls) =>
              match xlsbSheet styles isNull (fun seen => if seen then nulls else [])
                  ⟨skip, take, ia.keepEmpty, ia.skipCols⟩ part with
              | .error e => .error e
              | .ok evs =>
                readCells env lib search reMatch args { shared := shared, binary := true, opts := o }
                  (evs.filterMap Ev.cell?)

end Rxls
