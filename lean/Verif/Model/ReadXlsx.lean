import Verif.Model.ReadXlsb
import Verif.Model.Null

/-! # `read` on an XLSX file: all steps -/

namespace Rxls

/-- The parts of an XLSX package, as expat reports them.  The relationships are those of `xl/_rels/workbook.xml.rels`,
already parsed (`Relationship.scan_xml`).  (`rxls/reader/xlsx.py:135,142,162,209,442`.) -/
structure XlsxFile where
  rels : List Relationship
  /-- `xl/workbook.xml` -/
  workbook : XmlDoc
  /-- `xl/sharedStrings.xml`, if it is there -/
  shared : Option XmlDoc
  /-- `xl/styles.xml`, if it is there -/
  styles : Option XmlDoc
  /-- the other parts by name -/
  parts : Str → Option XmlDoc

/-- `XlsxWorkbook.styles`, `XlsxWorkbook.shared` of a package.  (`rxls/reader/xlsx.py:154-253`.) -/
def XlsxFile.formats (toInt : Str → Option Int) (f : XlsxFile) : Py (List (Str × Nat)) :=
  match openPart f.styles with
  | .error e => .error e
  | .ok d => xlsxStyles toInt d
@[inherit_doc XlsxFile.formats] def XlsxFile.strings (isNull : Str → Bool) (f : XlsxFile) :
    Py (List (Option Str) × List Str) :=
  match openPart f.shared with
  | .error e => .error e
  | .ok d => xlsxShared isNull d

/-- `read` on an XLSX file (`common.py:156-339` with `xlsx.py:255-460`).  `isNull` is the predicate made from
`null_values`.  The shared strings are read when the first cell arrives; what happened to the parser thread does not
matter (see `xlsxSheet`). -/
def readXlsx {A D : Type} (env : Env) (lib : Lib A D) (search : Str → Option (Str → Bool))
    (reMatch : Str → Str → Py Bool) (toInt : Str → Option Int) (isNull : Str → Bool) (o : ConcatOpts) (ia : IterArgs)
    (args : ReadArgs D) (f : XlsxFile) : Py (Table A) :=
  match xlsxSheets f.rels f.workbook with
  | .error e => .error e
  | .ok sheets =>
    match selectSheet sheets ia.sheet with
    | .error e => .error e
    | .ok path =>
      match checkRows ia.skipRows ia.takeRows with
      | .error e => .error e
      | .ok (skip, take) =>
        match openPart (f.parts path) with
        | .error e => .error e
        | .ok doc =>
          match f.formats toInt with
          | .error e => .error e
          | .ok styles =>
            let cells := (xlsxSheet styles isNull ⟨skip, take, ia.keepEmpty, ia.skipCols⟩ doc).1.filterMap Ev.cell?
            if cells.isEmpty then .error .valueError
            else
              match f.strings isNull with
              | .error e => .error e
              | .ok (shared, _) =>
                readCells env lib search reMatch args { shared := shared, binary := false, opts := o } cells

end Rxls
