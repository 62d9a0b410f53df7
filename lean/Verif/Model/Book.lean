import Verif.Model.ReadFile

/-! # The workbook objects and their life -/

namespace Rxls

/-- What `XlsxWorkbook` and `XlsbWorkbook` compute from an open file.  `F` is the content of the file, `T` the value of
`styles`, `K` the keys in `null_shared`.  The rest of the two classes is the same text (`xlsx.py:89-131`,
`xlsb.py:62-104`). -/
structure BookKind (F T K : Type) where
  /-- the test of `__enter__` (`xlsx.py:120`, `xlsb.py:93`) -/
  isBook : F → Bool
  /-- the body of `sheets` -/
  sheets : F → Py (List (Str × Str))
  /-- the body of `shared`: the strings and the keys added to `null_shared`.  Simplification: when it raises nothing
  has been added. -/
  shared : F → Py (List (Option Str) × List K)
  /-- the body of `styles` -/
  styles : F → Py T
  /-- `zf.open(sheet_path)` and the rest of `iter_worksheet`, given the path, the checked row arguments, `styles` and
  `null_shared` -/
  cells : F → Str → SheetArgs → T → List K → Py (List Ev)

/-- `self.zf`: `None`, an open archive, a closed archive.
(`rxls/reader/xlsx.py:115,119,126` and `rxls/reader/xlsb.py:88,92,99`.) -/
inductive ZipState (F : Type) where
  | none
  | opened (f : F)
  | closed
  deriving DecidableEq

/-- A workbook object (`xlsx.py:90`, `xlsb.py:63`): `zf`, the values kept by `cached_property`, `null_shared`. -/
structure Book (F T K : Type) where
  zip : ZipState F := .none
  sheets : Option (List (Str × Str)) := none
  shared : Option (List (Option Str)) := none
  styles : Option T := none
  nulls : List K := []

/-- What can be done with a workbook object from outside.  `enter f`: `__enter__` while the file has the content `f`.
(`rxls/reader/xlsx.py:118-264` and `rxls/reader/xlsb.py:91-189`.) -/
inductive BookOp (F : Type) where
  | enter (f : F)
  | exit
  | sheets
  | shared
  | styles
  | iterate (a : IterArgs)

/-- What comes back.  (`rxls/reader/xlsx.py:118-264` and `rxls/reader/xlsb.py:91-189`.) -/
inductive BookOut (T : Type) where
  | done
  | sheets (l : List (Str × Str))
  | shared (l : List (Option Str))
  | styles (t : T)
  | cells (l : List Ev)
  | raised (e : PyErr)
  deriving DecidableEq

/-- `self.zf` as an archive that can be read: RuntimeError when it is `None` (`xlsx.py:130-132` and alike), ValueError
from `zipfile` when it has been closed. -/
def ZipState.file {F : Type} : ZipState F → Py F
  | .none => .error .runtimeError
  | .opened f => .ok f
  | .closed => .error .valueError

/-- The property `sheets` (`xlsx.py:128-152`, `xlsb.py:101-121`): computed once, an exception is not kept. -/
def Book.getSheets {F T K : Type} (kind : BookKind F T K) (b : Book F T K) : Book F T K × Py (List (Str × Str)) :=
  match b.sheets with
  | some l => (b, .ok l)
  | none =>
    match b.zip.file with
    | .error e => (b, .error e)
    | .ok f =>
      match kind.sheets f with
      | .error e => (b, .error e)
      | .ok l => ({ b with sheets := some l }, .ok l)

/-- The property `shared` (`xlsx.py:154-193`, `xlsb.py:123-138`). -/
def Book.getShared {F T K : Type} (kind : BookKind F T K) (b : Book F T K) : Book F T K × Py (List (Option Str)) :=
  match b.shared with
  | some l => (b, .ok l)
  | none =>
    match b.zip.file with
    | .error e => (b, .error e)
    | .ok f =>
      match kind.shared f with
      | .error e => (b, .error e)
      | .ok (l, ks) => ({ b with shared := some l, nulls := b.nulls ++ ks }, .ok l)

/-- The property `styles` (`xlsx.py:195-253`, `xlsb.py:140-178`). -/
def Book.getStyles {F T K : Type} (kind : BookKind F T K) (b : Book F T K) : Book F T K × Py T :=
  match b.styles with
  | some l => (b, .ok l)
  | none =>
    match b.zip.file with
    | .error e => (b, .error e)
    | .ok f =>
      match kind.styles f with
      | .error e => (b, .error e)
      | .ok t => ({ b with styles := some t }, .ok t)

/-- `list(self.iter_worksheet(...))` (`xlsx.py:255-460`, `xlsb.py:180-303`).  Simplification: the styles are read before
the first cell record instead of at it. -/
def Book.iterate {F T K : Type} (kind : BookKind F T K) (b : Book F T K) (a : IterArgs) :
    Book F T K × Py (List Ev) :=
  match b.zip with
  | .none => (b, .error .runtimeError)
  | _ =>
    match b.getSheets kind with
    | (b, .error e) => (b, .error (leaveGenerator e))
    | (b, .ok sheets) =>
      match selectSheet sheets a.sheet with
      | .error e => (b, .error e)
      | .ok path =>
        match checkRows a.skipRows a.takeRows with
        | .error e => (b, .error e)
        | .ok (skip, take) =>
          match b.zip.file with
          | .error e => (b, .error e)
          | .ok f =>
            match b.getStyles kind with
            | (b, .error e) => (b, .error e)
            | (b, .ok styles) => (b, kind.cells f path ⟨skip, take, a.keepEmpty, a.skipCols⟩ styles b.nulls)

/-- A result as an answer.  (`rxls/reader/xlsx.py:118-264` and `rxls/reader/xlsb.py:91-189`.) -/
def BookOut.of {α T : Type} (g : α → BookOut T) : Py α → BookOut T
  | .ok a => g a
  | .error e => .raised e

/-- One operation.  `__enter__` (`xlsx.py:118-122`, `xlsb.py:91-95`) has stored the archive before it looks for the
workbook part; `__exit__` (`xlsx.py:124-126`) closes the archive and keeps it. -/
def Book.step {F T K : Type} (kind : BookKind F T K) (b : Book F T K) : BookOp F → Book F T K × BookOut T
  | .enter f => ({ b with zip := .opened f }, if kind.isBook f then .done else .raised .assertionError)
  | .exit => (match b.zip with | .none => b | _ => { b with zip := .closed }, .done)
  | .sheets => match b.getSheets kind with | (b, r) => (b, .of .sheets r)
  | .shared => match b.getShared kind with | (b, r) => (b, .of .shared r)
  | .styles => match b.getStyles kind with | (b, r) => (b, .of .styles r)
  | .iterate a => match b.iterate kind a with | (b, r) => (b, .of .cells r)

/-- A history of operations and its answers.  (`rxls/reader/xlsx.py:89-460` and `rxls/reader/xlsb.py:62-303`.) -/
def Book.run {F T K : Type} (kind : BookKind F T K) : Book F T K → List (BookOp F) → Book F T K × List (BookOut T)
  | b, [] => (b, [])
  | b, op :: ops =>
    match b.step kind op with
    | (b, r) => match b.run kind ops with | (b, rs) => (b, r :: rs)

/-- `XlsxWorkbook`.  `null_shared` is handed to the parser thread (`xlsx.py:447`) but never consulted, because
`is_sharedstr` stays `False` (`xlsx.py:312`, `365-367`). -/
def xlsxBook (toInt : Str → Option Int) (isNull : Str → Bool) : BookKind Package (List (Str × Nat)) Str where
  isBook p := p.names.contains workbookXml
  sheets p := xlsxSheets p.xlsx.rels p.xlsx.workbook
  shared p := p.xlsx.strings isNull
  styles p := p.xlsx.formats toInt
  cells p path o styles _ :=
    match openPart (p.xlsx.parts path) with
    | .error e => .error e
    | .ok doc => .ok (xlsxSheet styles isNull o doc).1

/-- `XlsbWorkbook`.  (`rxls/reader/xlsb.py:62-303`.) -/
def xlsbBook (isNull : Str → Bool) : BookKind Package (List Bytes) Bytes where
  isBook p := p.names.contains workbookBin
  sheets p := xlsbSheets p.xlsb.rels p.xlsb.workbook
  shared p := p.xlsb.strings isNull
  styles p := p.xlsb.temporal
  cells p path o styles nulls :=
    match openPart (p.xlsb.parts path) with
    | .error e => .error e
    | .ok part => xlsbSheet styles isNull (fun _ => nulls) o part

end Rxls
