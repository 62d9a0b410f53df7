import Verif.Model.Null
import Verif.Model.NumFmt
import Verif.Model.Rels
import Verif.Model.Series

/-!
# Model of `rxls/reader/xlsb.py`

Records are those `scan_biff` delivers.  Archive parts are taken as already opened.
-/

namespace Rxls

/-- Assignment in a Python `dict`: the value of an existing key is replaced in place, a new key goes to the end.
(`rxls/reader/xlsb.py:120,150-163`.) -/
def dictSet {κ α : Type} [DecidableEq κ] (d : List (κ × α)) (k : κ) (v : α) : List (κ × α) :=
  if d.any (fun p => p.1 = k) then d.map fun p => if p.1 = k then (k, v) else p
  else d ++ [(k, v)]

/-! ## Shared strings -/

/-- Text of one SST item (`xlsb.py:134`): `r.data[5 : 5 + 2 n].decode("utf-16")`. -/
def sstText (data : Bytes) : Py Str :=
  match unpackI (pySlice data 1 5) with
  | .error e => .error e
  | .ok n => decodeUtf16 (pySlice data 5 (5 + n * 2))

/-- `XlsbWorkbook.shared` (`xlsb.py:123-138`) over the records of id 19 from number `i` on: the texts and the
keys put in `null_shared`. -/
def sharedFrom (isNull : Str → Bool) : Nat → List Record → Py (List (Option Str) × List Bytes)
  | _, [] => .ok ([], [])
  | i, r :: rs =>
    match sstText r.data with
    | .error e => .error e
    | .ok y =>
      match (if isNull y then (packI i).map fun k => [k] else .ok []) with
      | .error e => .error e
      | .ok ks =>
        match sharedFrom isNull (i + 1) rs with
        | .error e => .error e
        | .ok (ys, ks') => .ok (some y :: ys, ks ++ ks')

/-- `XlsbWorkbook.shared` on the bytes of `xl/sharedStrings.bin`.  (`rxls/reader/xlsb.py:123-138`.) -/
def xlsbShared (isNull : Str → Bool) (part : Bytes) : Py (List (Option Str) × List Bytes) :=
  sharedFrom isNull 0 (scanBiff (some [19]) part)

/-! ## Styles -/

/-- `xfs` (`xlsb.py:150-157`): number of the cell format (with a zero byte) and its format id bytes. -/
def xfsFrom : Nat → List Record → Py (List (Bytes × Bytes))
  | _, [] => .ok []
  | i, r :: rs =>
    if pySlice r.data 0 2 = [0xFF, 0xFF] then xfsFrom i rs
    else
      match packH i with
      | .error e => .error e
      | .ok k =>
        match xfsFrom (i + 1) rs with
        | .error e => .error e
        | .ok l => .ok ((k ++ [0], pySlice r.data 2 4) :: l)

/-- `fms` (`xlsb.py:160-163`): the whole rest of the record is decoded, its length field included. -/
def fmsOf : List Record → Py (List (Bytes × Str))
  | [] => .ok []
  | r :: rs =>
    match decodeUtf16 (r.data.drop 2) with
    | .error e => .error e
    | .ok s =>
      match fmsOf rs with
      | .error e => .error e
      | .ok l => .ok ((pySlice r.data 0 2, beforeSemicolon s) :: l)

/-- Last value of a key, as in a `dict` built from pairs.  (`rxls/reader/xlsb.py:150-163`.) -/
def dictOf {κ α : Type} [DecidableEq κ] (l : List (κ × α)) : List (κ × α) :=
  l.foldl (fun d p => dictSet d p.1 p.2) []

/-- Step [2] (`xlsb.py:166-173`): cell formats added because of a custom format. -/
def customStyles (xfs : List (Bytes × Bytes)) : List (Bytes × Str) → List Bytes
  | [] => []
  | (f, fmt) :: rest =>
    (if fmt = ['0'] ∨ fmtTemporal fmt = true then (xfs.filter fun p => p.2 = f).map (·.1) else [])
      ++ customStyles xfs rest

/-- Step [3] (`xlsb.py:176`): only the first byte of the format id is looked at; IndexError if it is missing. -/
def builtinStyles : List (Bytes × Bytes) → Py (List Bytes)
  | [] => .ok []
  | (k, y) :: rest =>
    match y with
    | [] => .error .indexError
    | b :: _ =>
      match builtinStyles rest with
      | .error e => .error e
      | .ok l => .ok (if temporalStyles.contains b.toNat then k :: l else l)

/-- `XlsbWorkbook.styles` (`xlsb.py:140-178`) on the bytes of `xl/styles.bin`: the set of temporal cell formats. -/
def xlsbStyles (part : Bytes) : Py (List Bytes) :=
  match xfsFrom 0 (scanBiff (some [47]) part) with
  | .error e => .error e
  | .ok xfs =>
    match fmsOf (scanBiff (some [44]) part) with
    | .error e => .error e
    | .ok fms =>
      match builtinStyles xfs with
      | .error e => .error e
      | .ok b => .ok (customStyles xfs (dictOf fms) ++ b)

/-! ## Sheets -/

/-- Directory of the sheet parts (`xlsb.py:116`, `xlsx.py:139`). -/
def xlPrefix : Str := "xl/".toList

/-- `XlsbWorkbook.sheets` (`xlsb.py:101-121`) over the records of id 412: names and part names, as a `dict`. -/
def xlsbSheetsFrom (rels : List Relationship) : List (Str × Str) → List Record → Py (List (Str × Str))
  | d, [] => .ok d
  | d, r :: rs =>
    match bundleLoadr r.data with
    | .error e => .error e
    | .ok sh =>
      match rels.find? fun x => x.id = xstrValue sh.strRelID with
      | none => .error .stopIteration
      | some x => xlsbSheetsFrom rels (dictSet d (xstrValue sh.strName) (xlPrefix ++ x.target)) rs

@[inherit_doc xlsbSheetsFrom] def xlsbSheets (rels : List Relationship) (workbook : Bytes) : Py (List (Str × Str)) :=
  xlsbSheetsFrom rels [] (scanBiff (some [412]) workbook)

/-- An exception leaving the generator `iter_worksheet`: a StopIteration becomes a RuntimeError (PEP 479).
(`rxls/reader/xlsb.py:180-303` and `rxls/reader/xlsx.py:255-460`.) -/
def leaveGenerator : PyErr → PyErr
  | .stopIteration => .runtimeError
  | e => e

/-- The `sheet` argument.  (`rxls/reader/xlsb.py:182,196-205`.) -/
inductive SheetArg where
  | index (i : Int)
  | name (s : Str)

/-- Choice of the part (`xlsb.py:196-205`, `xlsx.py:271-280`, identical). -/
def selectSheet (sheets : List (Str × Str)) : SheetArg → Py Str
  | .index i =>
    if 0 ≤ i ∧ i < sheets.length then
      match sheets[i.toNat]? with
      | some p => .ok p.2
      | none => .error .stopIteration
    else .error .indexError
  | .name s =>
    match sheets.find? fun p => p.1 = s with
    | some p => .ok p.2
    | none => .error .keyError

/-! ## Cells -/

/-- The row and column restrictions of `iter_worksheet`, after the checks `xlsb.py:207-210`.  An absent
`skip_cols` is the empty list. -/
structure SheetArgs where
  skipRows : Nat := 0
  takeRows : Nat := 0
  keepEmpty : Bool := true
  skipCols : List Int := []

/-- The checks of `skip_rows` and `take_rows` (`xlsb.py:207-210`, `xlsx.py:282-285`). -/
def checkRows (skip take : Int) : Py (Nat × Nat) :=
  if skip < 0 then .error .valueError
  else if take < 0 then .error .valueError
  else .ok (skip.toNat, take.toNat)

/-- What a reader does as seen from outside: a call of `row_callback`, or a delivered cell.
(`rxls/reader/xlsb.py:237,249,267-301`.) -/
inductive Ev where
  | callback
  | cell (c : Cell)
  deriving DecidableEq, Repr

/-- One cell record (`xlsb.py:252-301`): `none` when it is skipped, otherwise column, type tag and value. -/
def xlsbCell (styles : List Bytes) (isNull : Str → Bool) (nullShared : List Bytes) (skipCols : List Int)
    (r : Record) : Py (Option (Int × Nat × Raw)) :=
  match unpackI (pySlice r.data 0 4) with
  | .error e => .error e
  | .ok n =>
    let col : Int := n
    if !skipCols.isEmpty && skipCols.contains col then .ok none
    else
      let adv := if styles.contains (pySlice r.data 4 7) then REPR_TEMPORAL else 0
      if r.recId = 6 ∨ r.recId = 8 then
        match unpackI (pySlice r.data 8 12) with
        | .error e => .error e
        | .ok n =>
          match decodeUtf16 (pySlice r.data 12 (n * 2 + 12)) with
          | .error e => .error e
          | .ok s => if isNull s then .ok none else .ok (some (col, TYPE_STRING ||| REPR_PREPARED, .text s))
      else if r.recId = 5 ∨ r.recId = 9 then
        .ok (some (col, TYPE_NUMERIC ||| (if adv ≠ 0 then adv else REPR_PREPARED), .bytes (pySlice r.data 8 16)))
      else if r.recId = 4 ∨ r.recId = 10 then
        .ok (some (col, TYPE_NUMERIC ||| REPR_BOOLEAN, .bytes (pySlice r.data 8 9)))
      else if r.recId = 7 then
        if nullShared.contains (pySlice r.data 8 12) then .ok none
        else .ok (some (col, TYPE_STRING ||| REPR_SHARED, .bytes (pySlice r.data 8 12)))
      else .ok (some (col, TYPE_NUMERIC ||| REPR_RKNUMBER ||| adv, .bytes (pySlice r.data 8 12)))

/-- The local state of the loop (`xlsb.py:213-214`); `seen`: a cell has been delivered. -/
structure XlsbState where
  row : Int := -1
  empty : Bool := false
  seen : Bool := false

/-- The record ids asked of `scan_biff` (`xlsb.py:228`). -/
def sheetIds : List Nat := [0, 2, 4, 5, 6, 7, 8, 9, 10, 402]

/-- The loop of `XlsbWorkbook.iter_worksheet` (`xlsb.py:228-303`).  `nulls false` is `null_shared` as it is
before the first cell is delivered, `nulls true` as it is afterwards: the set is filled by the first access to
`shared`, which `read` makes on receiving the first cell (`common.py:167-174`).  Cells delivered before an
exception are not kept, since `read` does not return then. -/
def iterXlsb (styles : List Bytes) (isNull : Str → Bool) (nulls : Bool → List Bytes) (o : SheetArgs) :
    List Record → XlsbState → Py (List Ev)
  | [], _ => .ok []
  | r :: rs, st =>
    if r.recId = 0 then
      let row := if !st.empty || o.keepEmpty then st.row + 1 else st.row
      if 0 < o.takeRows + o.skipRows ∧ ((o.takeRows + o.skipRows : Nat) : Int) < row then .ok []
      else
        match iterXlsb styles isNull nulls o rs { st with row := row, empty := true } with
        | .error e => .error e
        | .ok evs => .ok (if (o.skipRows : Int) ≤ row then .callback :: evs else evs)
    else if (o.skipRows : Int) > st.row then iterXlsb styles isNull nulls o rs st
    else if r.recId = 402 then .ok [.callback]
    else
      match xlsbCell styles isNull (nulls st.seen) o.skipCols r with
      | .error e => .error e
      | .ok none => iterXlsb styles isNull nulls o rs st
      | .ok (some (col, xdt, v)) =>
        match iterXlsb styles isNull nulls o rs { st with empty := false, seen := true } with
        | .error e => .error e
        | .ok evs => .ok (.cell ⟨(st.row - o.skipRows).toNat, col, xdt, v⟩ :: evs)

/-- `iter_worksheet` on the bytes of a sheet part.  (`rxls/reader/xlsb.py:216-303`.) -/
def xlsbSheet (styles : List Bytes) (isNull : Str → Bool) (nulls : Bool → List Bytes) (o : SheetArgs)
    (part : Bytes) : Py (List Ev) :=
  iterXlsb styles isNull nulls o (scanBiff (some sheetIds) part) {}

end Rxls
