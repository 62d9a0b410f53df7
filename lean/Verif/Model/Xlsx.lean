import Verif.Model.Xlsb

/-!
# Model of `rxls/reader/xlsx.py`

An XML part is the sequence of events expat reports to the three handlers, and whether the parse ends with an
expat error.  With `buffer_text` expat joins adjacent text, but hands it over in pieces of at most 8192 bytes, so
a text may still come as several `text` events.
-/

namespace Rxls

/-- An event: `StartElementHandler`, `CharacterDataHandler`, `EndElementHandler`.  (`rxls/reader/xlsx.py:420-424`.) -/
inductive Xml where
  | start (tag : Str) (attrs : List (Str × Str))
  | text (s : Str)
  | close (tag : Str)
  deriving DecidableEq, Repr

/-- A part: the events up to its end or up to the first syntax error (`bad`).
(`rxls/reader/xlsx.py:149-151,185-191,221-225,420-427`.) -/
structure XmlDoc where
  events : List Xml
  bad : Bool := false
  deriving DecidableEq, Repr

/-- `attrs.get(key)`; attribute names are unique in XML.  (`rxls/reader/xlsx.py:333,336`.) -/
def attrGet (attrs : List (Str × Str)) (key : Str) : Option Str := (attrs.find? fun p => p.1 = key).map (·.2)

/-- `attrs[key]`.  (`rxls/reader/xlsx.py:147,215,218,330`.) -/
def attrAt (attrs : List (Str × Str)) (key : Str) : Py Str :=
  match attrGet attrs key with
  | some v => .ok v
  | none => .error .keyError

/-- Whitespace as `str.strip` sees it.  (library behaviour used at `rxls/reader/xlsx.py:172,366`.) -/
def pySpace (c : Char) : Bool :=
  (9 ≤ c.toNat && c.toNat ≤ 13) || (28 ≤ c.toNat && c.toNat ≤ 32) || c.toNat == 0x85 || c.toNat == 0xA0 ||
    c.toNat == 0x1680 || (0x2000 ≤ c.toNat && c.toNat ≤ 0x200A) || c.toNat == 0x2028 || c.toNat == 0x2029 ||
    c.toNat == 0x202F || c.toNat == 0x205F || c.toNat == 0x3000

/-- `txt.strip()`.  (`rxls/reader/xlsx.py:172,366`.) -/
def pyStrip (s : Str) : Str := ((s.dropWhile pySpace).reverse.dropWhile pySpace).reverse

/-- `str(n)` for a non-negative integer.  (`rxls/reader/xlsx.py:182,218`.) -/
def pyStr (n : Nat) : Str := Nat.toDigits 10 n

/-- Element and attribute names.  (`rxls/reader/xlsx.py:146-147,167,214-218,328-336,366,397,416`.) -/
def tagC : Str := ['c']
@[inherit_doc tagC] def tagV : Str := ['v']
@[inherit_doc tagC] def tagRow : Str := ['r', 'o', 'w']
@[inherit_doc tagC] def tagSi : Str := ['s', 'i']
@[inherit_doc tagC] def tagXf : Str := ['x', 'f']
@[inherit_doc tagC] def tagNumFmt : Str := ['n', 'u', 'm', 'F', 'm', 't']
@[inherit_doc tagC] def tagSheet : Str := ['s', 'h', 'e', 'e', 't']
@[inherit_doc tagC] def attR : Str := ['r']
@[inherit_doc tagC] def attT : Str := ['t']
@[inherit_doc tagC] def attS : Str := ['s']
@[inherit_doc tagC] def attXfId : Str := ['x', 'f', 'I', 'd']
@[inherit_doc tagC] def attNumFmtId : Str := ['n', 'u', 'm', 'F', 'm', 't', 'I', 'd']
@[inherit_doc tagC] def attFormatCode : Str := ['f', 'o', 'r', 'm', 'a', 't', 'C', 'o', 'd', 'e']
@[inherit_doc tagC] def attRId : Str := ['r', ':', 'i', 'd']
@[inherit_doc tagC] def attName : Str := ['n', 'a', 'm', 'e']
@[inherit_doc tagC] def worksheetType : Str := ['w', 'o', 'r', 'k', 's', 'h', 'e', 'e', 't']

/-! ## Sheets -/

/-- `rId_to_file` (`xlsx.py:135-140`). -/
def worksheetFiles (rels : List Relationship) : List (Str × Str) :=
  rels.foldl (fun d r => if r.type = worksheetType then dictSet d r.id (xlPrefix ++ r.target) else d) []

/-- `rId_to_name` (`xlsx.py:142-151`): the handler over the events of `xl/workbook.xml`. -/
def sheetNames : List (Str × Str) → List Xml → Py (List (Str × Str))
  | d, [] => .ok d
  | d, .start tag attrs :: es =>
    if tag = tagSheet then
      match attrAt attrs attName, attrAt attrs attRId with
      | .ok name, .ok rid => sheetNames (dictSet d rid name) es
      | _, _ => .error .keyError
    else sheetNames d es
  | d, _ :: es => sheetNames d es

/-- The comprehension `{rId_to_name[x]: rId_to_file[x] for x in rId_to_name}` (`xlsx.py:152`). -/
def joinSheets (files : List (Str × Str)) : List (Str × Str) → List (Str × Str) → Py (List (Str × Str))
  | d, [] => .ok d
  | d, (rid, name) :: rest =>
    match files.find? fun p => p.1 = rid with
    | none => .error .keyError
    | some p => joinSheets files (dictSet d name p.2) rest

/-- `XlsxWorkbook.sheets` (`xlsx.py:128-152`).  A syntax error is expat's own exception, a plain `Exception`
subclass, here `runtimeError`. -/
def xlsxSheets (rels : List Relationship) (workbook : XmlDoc) : Py (List (Str × Str)) :=
  match sheetNames [] workbook.events with
  | .error e => .error e
  | .ok names => if workbook.bad then .error .runtimeError else joinSheets (worksheetFiles rels) [] names

/-! ## Shared strings -/

/-- The handlers of `XlsxWorkbook.shared` (`xlsx.py:163-183`): the entries appended and the keys added to
`null_shared`.  `n` entries are there already, `must` is `must_be`. -/
def sharedXml (isNull : Str → Bool) : Nat → Bool → List Xml → List (Option Str) × List Str
  | _, _, [] => ([], [])
  | n, must, .start tag _ :: es => sharedXml isNull n (must || tag = tagSi) es
  | n, must, .text s :: es =>
    if must = true ∧ pyStrip s ≠ [] ∧ isNull (pyStrip s) = false then
      let r := sharedXml isNull (n + 1) false es
      (some (pyStrip s) :: r.1, r.2)
    else sharedXml isNull n must es
  | n, must, .close tag :: es =>
    if tag = tagSi ∧ must = true then
      let r := sharedXml isNull (n + 1) false es
      (none :: r.1, pyStr n :: r.2)
    else sharedXml isNull n must es

/-- `XlsxWorkbook.shared` (`xlsx.py:154-193`) on the events of `xl/sharedStrings.xml`. -/
def xlsxShared (isNull : Str → Bool) (doc : XmlDoc) : Py (List (Option Str) × List Str) :=
  if doc.bad then .error .runtimeError else .ok (sharedXml isNull 0 false doc.events)

/-! ## Styles -/

/-- `.00`  (`rxls/reader/xlsx.py:229`.) -/
def dotZeros : Str := ['.', '0', '0']

/-- The handler of `XlsxWorkbook.styles` (`xlsx.py:211-219`): `fms` and `xfs`; the key of `xfs` is the position as a
string, so the list of values is kept. -/
def stylesXml : List (Str × Str) → List Str → List Xml → Py (List (Str × Str) × List Str)
  | fms, xfs, [] => .ok (fms, xfs)
  | fms, xfs, .start tag attrs :: es =>
    if tag = tagNumFmt then
      match attrAt attrs attFormatCode, attrAt attrs attNumFmtId with
      | .ok code, .ok fid => stylesXml (dictSet fms fid (beforeSemicolon code)) xfs es
      | _, _ => .error .keyError
    else if tag = tagXf ∧ (attrGet attrs attXfId).isSome then
      match attrAt attrs attNumFmtId with
      | .ok fid => stylesXml fms (xfs ++ [fid]) es
      | .error e => .error e
    else stylesXml fms xfs es
  | fms, xfs, _ :: es => stylesXml fms xfs es

/-- `[x for x, y in xfs.items() if y == f_id]` (`xlsx.py:228`). -/
def xfsWith (xfs : List Str) (p : Str → Bool) : List Str :=
  (xfs.zipIdx.filter fun q => p q.1).map fun q => pyStr q.2

/-- `fmt == "0" or ".00" in fmt` (`xlsx.py:229`). -/
def fmtNumeric (fmt : Str) : Bool := fmt = ['0'] || hasSub dotZeros fmt

/-- `int(y) in NUMERIC_STYLES`, `int(y) in TEMPORAL_STYLES` (`xlsx.py:235-249`), where `int` does not raise. -/
def builtinFmt (toInt : Str → Option Int) (ids : List Nat) (y : Str) : Bool :=
  match toInt y with
  | some i => ids.any fun n => (n : Int) = i
  | none => false

/-- `XlsxWorkbook.styles` (`xlsx.py:195-253`): the keys with their type.  The result is a `dict` used only by
`get`; the numeric entries, which override the temporal ones, come first and `find?` takes the first.
`toInt` is Python's `int(text)`; `none` is ValueError. -/
def xlsxStyles (toInt : Str → Option Int) (doc : XmlDoc) : Py (List (Str × Nat)) :=
  match stylesXml [] [] doc.events with
  | .error e => .error e
  | .ok (fms, xfs) =>
    if doc.bad then .error .runtimeError
    else if xfs.any fun y => (toInt y).isNone then .error .valueError
    else
      let num := (fms.flatMap fun p => if fmtNumeric p.2 then xfsWith xfs (· = p.1) else []) ++
        xfsWith xfs (builtinFmt toInt numericStyles)
      let tmp := (fms.flatMap fun p =>
          if !fmtNumeric p.2 && fmtTemporal p.2 then xfsWith xfs (· = p.1) else []) ++
        xfsWith xfs (builtinFmt toInt temporalStyles)
      .ok ((num.map fun k => (k, TYPE_NUMERIC)) ++ tmp.map fun k => (k, TYPE_NUMERIC ||| REPR_TEMPORAL))

/-! ## Cells -/

/-- The variables of the worker (`xlsx.py:303-317`); `is_sharedstr` is never assigned again after `False` and is
left out, like `tags` and `nullss`, which are not used. -/
structure XlsxState where
  row : Nat := 0
  empty : Bool := true
  cRow : Nat := 0
  cTyp : Nat := 0
  lCol : Str := []
  lTag : Option Str := none
  take : Nat
  deriving DecidableEq, Repr

/-- Type of a cell from its attributes (`xlsx.py:333-339`). -/
def xlsxType (styles : List (Str × Nat)) (attrs : List (Str × Str)) : Nat :=
  if attrGet attrs attT = some ['s'] then TYPE_STRING ||| REPR_SHARED
  else
    match styles.find? fun p => p.1 = (attrGet attrs attS).getD ['0'] with
    | some p => if p.2 ≠ 0 then p.2 else TYPE_STRING ||| REPR_PREPARED
    | none => TYPE_STRING ||| REPR_PREPARED

/-- `cell_sh` (`xlsx.py:324-346`). -/
def xlsxStart (styles : List (Str × Nat)) (skip : Nat) (st : XlsxState) (tag : Str)
    (attrs : List (Str × Str)) : Py XlsxState :=
  match st.lTag with
  | some _ => .ok { st with lTag := some tag }
  | none =>
    if tag = tagC ∧ skip ≤ st.row then
      match attrAt attrs attR with
      | .error e => .error e
      | .ok r => .ok { st with lCol := r, cTyp := xlsxType styles attrs, cRow := st.row, lTag := some tag }
    else .ok st

/-- `cell_th` (`xlsx.py:349-385`): the new state and the cell put in the queue.  The value is kept as text, its
UTF-8 encoding is undone by the column (`Raw`). -/
def xlsxText (isNull : Str → Bool) (skip : Nat) (skipCols : List Int) (st : XlsxState) (txt : Str) :
    XlsxState × List Ev :=
  if st.row < skip then (st, [])
  else if st.lTag = some tagV ∧ pyStrip txt ≠ [] then
    if isNull (pyStrip txt) then (st, [])
    else
      let col := colIdx (st.lCol.flatMap String.utf8EncodeChar)
      if skipCols.isEmpty ∨ skipCols.contains col = false then
        ({ st with empty := false }, [.cell ⟨st.cRow - skip, col, st.cTyp, .text (pyStrip txt)⟩])
      else (st, [])
  else (st, [])

/-- `cell_eh` (`xlsx.py:387-418`): the new state, the calls of the callback, and whether `GeneratorExit` is
raised. -/
def xlsxEnd (keepEmpty : Bool) (st : XlsxState) (tag : Str) : XlsxState × List Ev × Bool :=
  if tag = tagRow then
    let row := if !st.empty || keepEmpty then st.row + 1 else st.row
    let take := st.take + (if st.empty && keepEmpty then 1 else 0)
    let take := take + (if keepEmpty && st.empty then 1 else 0)
    ({ st with row := row, take := take }, [.callback], decide (0 < take ∧ take < row))
  else if tag = tagC then ({ st with cTyp := 0, lTag := none }, [], false)
  else (st, [], false)

/-- How the worker ends: the parse is complete, stopped by the row limit, or an exception leaves the thread.
(`rxls/reader/xlsx.py:426-437`.) -/
inductive Exit where
  | finished
  | stopped
  | died (e : PyErr)
  deriving DecidableEq, Repr

/-- The worker (`xlsx.py:289-437`) over the events: what it does, in order, and how it ends. -/
def runXlsx (styles : List (Str × Nat)) (isNull : Str → Bool) (o : SheetArgs) (bad : Bool) :
    List Xml → XlsxState → List Ev × Exit
  | [], _ => ([], if bad then .died .runtimeError else .finished)
  | .start tag attrs :: es, st =>
    match xlsxStart styles o.skipRows st tag attrs with
    | .error e => ([], .died e)
    | .ok st' => runXlsx styles isNull o bad es st'
  | .text txt :: es, st =>
    let p := xlsxText isNull o.skipRows o.skipCols st txt
    let r := runXlsx styles isNull o bad es p.1
    (p.2 ++ r.1, r.2)
  | .close tag :: es, st =>
    let p := xlsxEnd o.keepEmpty st tag
    if p.2.2 then (p.2.1, .stopped)
    else
      let r := runXlsx styles isNull o bad es p.1
      (p.2.1 ++ r.1, r.2)

/-- `iter_worksheet` (`xlsx.py:287-460`) once the part is chosen: the first callback (`xlsx.py:320-322`) and the
worker's events.  The consumer sees the cells only; how the worker ended reaches it in no way (`finally:
o_q.put(sentinel)`).  Cells reach the consumer in order, see `Model/Queue.lean`. -/
def xlsxSheet (styles : List (Str × Nat)) (isNull : Str → Bool) (o : SheetArgs) (doc : XmlDoc) :
    List Ev × Exit :=
  let r := runXlsx styles isNull o doc.bad doc.events { take := o.takeRows + o.skipRows }
  (.callback :: r.1, r.2)

end Rxls
