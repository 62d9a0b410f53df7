import Verif.Model.Series
import Verif.Model.Xlsx
import Mathlib.Data.List.Sort

/-!
# `rxls/reader/common.py`

Materialising a column changes its state (see `Series.toArrow`), so every step returns the new columns.  When a step
raises, the columns are gone and only the exception is kept.
-/

namespace Rxls

/-- The file kind.  (`rxls/reader/common.py:142-148`.) -/
inductive Kind where
  | xlsx
  | xlsb
  deriving DecidableEq, Repr

/-- `xl/workbook.xml`, `xl/workbook.bin`.  (`rxls/reader/common.py:143,146`.) -/
def workbookXml : Str :=
  ['x', 'l', '/', 'w', 'o', 'r', 'k', 'b', 'o', 'o', 'k', '.', 'x', 'm', 'l']
@[inherit_doc workbookXml] def workbookBin : Str :=
  ['x', 'l', '/', 'w', 'o', 'r', 'k', 'b', 'o', 'o', 'k', '.', 'b', 'i', 'n']

/-- The choice of the reader from the names in the archive (`common.py:139-151`). -/
def fileKind (content : List Str) : Py Kind :=
  if content.contains workbookXml then .ok .xlsx
  else if content.contains workbookBin then .ok .xlsb
  else .error .assertionError

/-- The columns: `dict[int, xl_series]` in insertion order.  (`rxls/reader/common.py:156,182`.) -/
abbrev Cols := List (Int × Series)

/-- The body of the loop over the cells (`common.py:167-176`). -/
def addCell (env : Env) (fresh : Series) (cols : Cols) (c : Cell) : Py Cols :=
  match cols.find? fun p => p.1 = c.col with
  | none =>
    match fresh.add env c with
    | .ok s => .ok (cols ++ [(c.col, s)])
    | .error e => .error e
  | some p =>
    match p.2.add env c with
    | .ok s => .ok (cols.map fun q => if q.1 = c.col then (q.1, s) else q)
    | .error e => .error e

/-- The loop over the cells (`common.py:156-176`); `fresh` is the new column made for an unseen number. -/
def collect (env : Env) (fresh : Series) : Cols → List Cell → Py Cols
  | cols, [] => .ok cols
  | cols, c :: cs =>
    match addCell env fresh cols c with
    | .ok cols => collect env fresh cols cs
    | .error e => .error e

/-- `max(len(x) for x in columns.values())` (`common.py:184`); ValueError when there is no column. -/
def maxLen : Cols → Py Int
  | [] => .error .valueError
  | p :: ps => .ok (ps.foldl (fun m q => max m q.2.len) p.2.len)

/-- `sorted(columns)`.  (`rxls/reader/common.py:30,35,215,297`.) -/
def sortedKeys (cols : Cols) : List Int := (cols.map (·.1)).insertionSort (· ≤ ·)

/-- A method call on `columns[k]` that may change the column.  (`rxls/reader/common.py:29,80,87,246,297`.) -/
def onColumn {α : Type} (cols : Cols) (k : Int) (f : Series → Series × Py α) : Py (Cols × α) :=
  match cols.find? fun p => p.1 = k with
  | none => .error .keyError
  | some p =>
    match f p.2 with
    | (_, .error e) => .error e
    | (s, .ok a) => .ok (cols.map fun q => if q.1 = k then (q.1, s) else q, a)

/-- The same call on several columns, one after the other.  (`rxls/reader/common.py:28-36,245-248,297`.) -/
def onColumns {α : Type} (f : Series → Series × Py α) : Cols → List Int → Py (Cols × List α)
  | cols, [] => .ok (cols, [])
  | cols, k :: ks =>
    match onColumn cols k f with
    | .error e => .error e
    | .ok (cols, a) =>
      match onColumns f cols ks with
      | .error e => .error e
      | .ok (cols, as) => .ok (cols, a :: as)

/-- The text of an element of `to_utf8`.  (`rxls/reader/common.py:29,34`.) -/
def valText : Option Val → Option Str
  | some (.str s) => some s
  | _ => none

/-- `columns[k].to_utf8(offset, length)` as a Python list.  (`rxls/reader/common.py:29,34`.) -/
def textsOf (env : Env) (offset length : Int) (s : Series) : Series × Py (List (Option Str)) :=
  match s.toUtf8 env offset length none with
  | (s, .ok vs) => (s, .ok (vs.map valText))
  | (s, .error e) => (s, .error e)

/-! ## Header -/

/-- `Unnamed`, `Unnamed. ` and `, `.  (`rxls/reader/common.py:29,52,55,207`.) -/
def unnamed : Str := ['U', 'n', 'n', 'a', 'm', 'e', 'd']
@[inherit_doc unnamed] def unnamedDot : Str := ['U', 'n', 'n', 'a', 'm', 'e', 'd', '.', ' ']
@[inherit_doc unnamed] def commaSpace : Str := [',', ' ']

/-- `x if x else "Unnamed"` (`common.py:29`). -/
def orUnnamed : Option Str → Str
  | some (c :: s) => c :: s
  | _ => unnamed

/-- `sep.join(parts)`.  (`rxls/reader/common.py:52`.) -/
def joinWith (sep : Str) : List Str → Str
  | [] => []
  | [s] => s
  | s :: t :: rest => s ++ sep ++ joinWith sep (t :: rest)

/-- `h` if it is true.  (`rxls/reader/common.py:52`.) -/
def nonEmptyText : Option Str → Option Str
  | some (c :: s) => some (c :: s)
  | _ => none

/-- `", ".join(h for x in sorted(parts) if (h := parts[x])) or "Unnamed"` (`common.py:52`); `parts` is a dict with
the keys `0, 1, …`, kept as a list. -/
def joinParts (parts : List (Option Str)) : Str :=
  orUnnamed (some (joinWith commaSpace (parts.filterMap nonEmptyText)))

/-- The loop over the columns (`common.py:42-55`).  `prev` is `prev_hdr`; an empty dict is false, and updating from it would
change nothing.  The lists have different lengths when `header` is negative; a key below `top` that is not in `prev_hdr`
keeps its value. -/
def headerLoop : List (Option Str) → List (List (Option Str)) → List Str
  | _, [] => []
  | prev, parts :: rest =>
    match parts.findIdx? Option.isSome with
    | some top =>
      let parts := prev.take top ++ parts.drop (min top prev.length)
      joinParts parts :: headerLoop parts rest
    | none => unnamed :: headerLoop prev rest

/-- `columns[k].to_utf8(first_row, 1)[0].as_py()` (`common.py:29`). -/
def firstText (env : Env) (offset : Int) (s : Series) : Series × Py (Option Str) :=
  match textsOf env offset 1 s with
  | (s, .ok (x :: _)) => (s, .ok x)
  | (s, .ok []) => (s, .error .indexError)
  | (s, .error e) => (s, .error e)

/-- The `while` loop of one name (`common.py:60-64`): `none` when the fuel runs out. -/
def uniqueName (taken : List Str) (hdr : Str) : Nat → Nat → Str → Option Str
  | 0, _, _ => none
  | fuel + 1, i, n => if n ∈ taken then uniqueName taken hdr fuel (i + 1) (hdr ++ '.' :: pyStr i) else some n

/-- `result_hdrs` (`common.py:57-66`). -/
def resultHdrs : List Str → List Str → Option (List Str)
  | taken, [] => some taken
  | taken, hdr :: rest =>
    match uniqueName taken hdr (taken.length + 2) 1 hdr with
    | none => none
    | some n => resultHdrs (taken ++ [n]) rest

/-- `__make_header` (`common.py:22-68`).  The names made unique in `result_hdrs` (57-66, `resultHdrs`) are not returned
and are left out here; the loop that makes them has no other effect. -/
def makeHeader (env : Env) (cols : Cols) (firstRow length : Int) : Py (Cols × List Str) :=
  if length = 1 then
    match onColumns (firstText env firstRow) cols (sortedKeys cols) with
    | .error e => .error e
    | .ok (cols, l) => .ok (cols, l.map orUnnamed)
  else
    match onColumns (textsOf env firstRow length) cols (sortedKeys cols) with
    | .error e => .error e
    | .ok (cols, grid) => .ok (cols, headerLoop [] grid)

/-- The argument `lookup_head`.  (`rxls/reader/common.py:73,118`.) -/
inductive Lookup where
  | none
  | column (k : Int)
  | pattern (p : Str)
  deriving DecidableEq, Repr

/-- The loop over the columns for a pattern (`common.py:85-95`).  `search` tells whether Arrow's regular expression
search finds the pattern in a text; a null is no match. -/
def findPattern (env : Env) (search : Str → Bool) (size : Int) : Cols → List Int → Py (Cols × Int)
  | cols, [] => .ok (cols, -1)
  | cols, k :: ks =>
    match onColumn cols k (textsOf env 0 size) with
    | .error e => .error e
    | .ok (cols, l) =>
      match l.findIdx? (Option.any search) with
      | none => findPattern env search size cols ks
      | some i => .ok (cols, i)

/-- `__find_header` (`common.py:71-95`) with `min_row = 0`, the only value used.  `search` compiles a pattern; a bad one
(`none`) raises ArrowInvalid at the first column, here before the texts of that column are made. -/
def findHeader (env : Env) (search : Str → Option (Str → Bool)) (cols : Cols) (size : Int) : Lookup → Py (Cols × Int)
  | .none => .ok (cols, 0)
  | .column k =>
    match onColumn cols k (textsOf env 0 size) with
    | .error e => .error e
    | .ok (cols, l) =>
      match l.findIdx? Option.isSome with
      | some i => .ok (cols, i)
      | none => .ok (cols, -1)
  | .pattern p =>
    match search p with
    | none => .error .arrowInvalid
    | some f => findPattern env f size cols (cols.map (·.1))

/-- The argument `header`: an integer (`True` is 1, `False` is 0) or names.  (`rxls/reader/common.py:105,196-200`.) -/
inductive HeaderArg where
  | rows (n : Int)
  | names (l : List Str)
  deriving DecidableEq, Repr

/-- Height and names of the header (`common.py:195-207`). -/
def headerOf (env : Env) (cols : Cols) (firstRow : Int) : HeaderArg → Py (Cols × Int × List Str)
  | .rows n =>
    if n ≠ 0 then
      match makeHeader env cols firstRow n with
      | .error e => .error e
      | .ok (cols, hdrs) => .ok (cols, n, hdrs)
    else .ok (cols, 0, (List.range cols.length).map fun i => unnamedDot ++ pyStr i)
  | .names l => if l.length ≠ cols.length then .error .valueError else .ok (cols, 0, l)

/-! ## Row filters -/

/-- The argument `row_filters`; `bad` is a value of another type, or a list of mixed types.
(`rxls/reader/common.py:121,212-234`.) -/
inductive RowFilters where
  | none
  | pattern (p : Str)
  | positions (l : List Int)
  | patterns (l : List Str)
  | bad
  deriving DecidableEq, Repr

/-- `[columns[x] for name, x in zip(header, sorted(columns)) if test(name)]`.  (`rxls/reader/common.py:213-230`.) -/
def keysWhere (test : Str → Py Bool) : List (Str × Int) → Py (List Int)
  | [] => .ok []
  | (name, k) :: rest =>
    match test name with
    | .error e => .error e
    | .ok b =>
      match keysWhere test rest with
      | .error e => .error e
      | .ok ks => .ok (if b then k :: ks else ks)

/-- `any(bool(re.match(x, name)) for x in row_filters)`: stops at the first match.  (`rxls/reader/common.py:229`.) -/
def anyMatch (reMatch : Str → Str → Py Bool) : List Str → Str → Py Bool
  | [], _ => .ok false
  | p :: ps, name =>
    match reMatch p name with
    | .error e => .error e
    | .ok true => .ok true
    | .ok false => anyMatch reMatch ps name

/-- The filter columns (`common.py:209-238`).  `reMatch` is Python's `re.match`.  An empty string or list is false and
means no filter. -/
def filterKeys (reMatch : Str → Str → Py Bool) (header : List Str) (keys : List Int) : RowFilters → Py (List Int)
  | .none => .ok []
  | .pattern p => if p.isEmpty then .ok [] else keysWhere (reMatch p) (header.zip keys)
  | .positions l => .ok ((keys.zipIdx.filter fun p => l.contains (p.2 : Int)).map (·.1))
  | .patterns l => keysWhere (anyMatch reMatch l) (header.zip keys)
  | .bad => .error .valueError

/-- An operator in a list; `bad` is anything but `"and"` and `"or"`.  (`rxls/reader/common.py:123,268-284`.) -/
inductive RowOp where
  | and
  | or
  | bad
  deriving DecidableEq, Repr

/-- The argument `row_filters_strategy`; `bad` is another type.  (`rxls/reader/common.py:123,252-287`.) -/
inductive Strategy where
  | or
  | and
  | ops (l : List RowOp)
  | bad
  deriving DecidableEq, Repr

/-- `pc.or_`, `pc.and_` on boolean arrays without nulls; ArrowInvalid for different lengths.
(`rxls/reader/common.py:253-261,282-284`.) -/
def zipBools (f : Bool → Bool → Bool) (a b : List Bool) : Py (List Bool) :=
  if a.length = b.length then .ok (List.zipWith f a b) else .error .arrowInvalid

/-- `reduce(f, list)` on a non-empty list, and the loop over operators (`common.py:253-284`): one operator for each
further array. -/
def foldBools : List Bool → List (RowOp × List Bool) → Py (List Bool)
  | acc, [] => .ok acc
  | acc, (op, b) :: rest =>
    match zipBools (if op = .and then Bool.and else Bool.or) acc b with
    | .error e => .error e
    | .ok acc => foldBools acc rest

/-- The combination of the filters (`common.py:249-289`). -/
def combineFilters (strategy : Strategy) : List (List Bool) → Py (List Bool)
  | [] => .error .stopIteration
  | [b] => .ok b
  | b :: bs =>
    match strategy with
    | .or => foldBools b (bs.map fun x => (.or, x))
    | .and => foldBools b (bs.map fun x => (.and, x))
    | .ops l =>
      if l.length ≠ bs.length then .error .valueError
      else if l.contains .bad then .error .valueError
      else foldBools b (l.zip bs)
    | .bad => .error .typeError

/-- `pc.invert(array.is_null(nan_is_null=True))` on one element.  (`rxls/reader/common.py:246`.) -/
def present : Option Val → Bool
  | none => false
  | some (.f8 .nan) => false
  | some _ => true

/-- `pc.invert(x.to_arrow(offset, length).is_null(nan_is_null=True))` (`common.py:246`). -/
def presence (env : Env) (offset length : Int) (s : Series) : Series × Py (List Bool) :=
  match s.toArrow env offset length none with
  | (s, .ok (.nulls n)) => (s, .ok (List.replicate n false))
  | (s, .ok (.arr a)) => (s, .ok (a.vals.map present))
  | (s, .error e) => (s, .error e)

/-- The mask of the rows to keep (`common.py:243-295`). -/
def rowMask (env : Env) (cols : Cols) (filters : List Int) (strategy : Strategy) (offset length : Int) :
    Py (Cols × Option (List Bool)) :=
  if filters.isEmpty then .ok (cols, none)
  else
    match onColumns (presence env offset length) cols filters with
    | .error e => .error e
    | .ok (cols, bs) =>
      match combineFilters strategy bs with
      | .error e => .error e
      | .ok m => if trueCount m = 0 then .error .valueError else .ok (cols, some m)

/-! ## Types -/

/-- Arrow arrays and types outside the four used by columns: `A` arrays, `D` types.
(`rxls/reader/common.py:299-339`.) -/
structure Lib (A D : Type) where
  /-- An array from a column. -/
  ofFetched : Fetched → A
  /-- `array.type.id` -/
  arrId : A → Nat
  /-- `dtype.id` -/
  typeId : D → Nat
  /-- `array.cast(dtype)`; `none` is an exception. -/
  cast : A → D → Option A
  /-- `len(array)` -/
  len : A → Nat

/-- The argument `dtypes`.  (`rxls/reader/common.py:107,299-322`.) -/
inductive DtypesArg (D : Type) where
  | none
  | single (d : D)
  | mapping (l : List (Str × D))
  | sequence (l : List D)

/-- The cast of one column (`common.py:302-309`, `314-321`, `330-337`). -/
def castOne {A D : Type} (lib : Lib A D) (a : A) (d : D) : Py A :=
  if lib.arrId a ≠ lib.typeId d then
    match lib.cast a d with
    | some a => .ok a
    | none => .error .valueError
  else .ok a

/-- The casts, column by column: `none` where no type is asked for.  (`rxls/reader/common.py:301-337`.) -/
def castEach {A D : Type} (lib : Lib A D) : List (A × Option D) → Py (List A)
  | [] => .ok []
  | (a, none) :: rest =>
    match castEach lib rest with
    | .error e => .error e
    | .ok as => .ok (a :: as)
  | (a, some d) :: rest =>
    match castOne lib a d with
    | .error e => .error e
    | .ok a =>
      match castEach lib rest with
      | .error e => .error e
      | .ok as => .ok (a :: as)

/-- `dtypes` applied to the arrays (`common.py:299-337`). -/
def applyDtypes {A D : Type} (lib : Lib A D) (header : List Str) (arrays : List A) : DtypesArg D → Py (List A)
  | .none => .ok arrays
  | .single d => castEach lib (arrays.map fun a => (a, some d))
  | .mapping l => castEach lib ((arrays.zip header).map fun p => (p.1, (l.find? fun q => q.1 = p.2).map (·.2)))
  | .sequence l =>
    if l.length ≠ header.length then .error .valueError
    else castEach lib ((arrays.zip l).map fun p => (p.1, some p.2))

/-! ## The whole -/

/-- The arguments of `read` used after the cells are collected.  (`rxls/reader/common.py:105-123`.) -/
structure ReadArgs (D : Type) where
  header : HeaderArg := .rows 0
  dtypes : DtypesArg D := .none
  skipAfter : Int := 0
  lookup : Lookup := .none
  lookupSize : Int := 30
  filters : RowFilters := .none
  strategy : Strategy := .or

/-- A table: names and arrays.  (`rxls/reader/common.py:339`.) -/
structure Table (A : Type) where
  names : List Str
  arrays : List A
  deriving DecidableEq, Repr

/-- `pa.table(arrays, names)` (`common.py:339`): ArrowInvalid when the lengths differ. -/
def makeTable {A D : Type} (lib : Lib A D) (names : List Str) (arrays : List A) : Py (Table A) :=
  if names.length ≠ arrays.length then .error .valueError
  else if arrays.all fun a => arrays.all fun b => lib.len a == lib.len b then .ok ⟨names, arrays⟩
  else .error .arrowInvalid

/-- `columns[x].to_arrow(g_offset, g_length, idx=idx)`.  (`rxls/reader/common.py:297`.) -/
def fetchWith (env : Env) (offset length : Int) (m : Option (List Bool)) (s : Series) : Series × Py Fetched :=
  s.toArrow env offset length m

/-- `read` from the columns on (`common.py:182-339`). -/
def readColumns {A D : Type} (env : Env) (lib : Lib A D) (search : Str → Option (Str → Bool))
    (reMatch : Str → Str → Py Bool) (args : ReadArgs D)
    (cols : Cols) : Py (Table A) :=
  match maxLen cols with
  | .error e => .error e
  | .ok maxLen =>
    match findHeader env search cols args.lookupSize args.lookup with
    | .error e => .error e
    | .ok (cols, firstRow) =>
      if firstRow = -1 then .error .valueError
      else
        match headerOf env cols firstRow args.header with
        | .error e => .error e
        | .ok (cols, height, names) =>
          match filterKeys reMatch names (sortedKeys cols) args.filters with
          | .error e => .error e
          | .ok filters =>
            let offset := height + firstRow + args.skipAfter
            let length := maxLen - firstRow - height - args.skipAfter
            match rowMask env cols filters args.strategy offset length with
            | .error e => .error e
            | .ok (cols, mask) =>
              match onColumns (fetchWith env offset length mask) cols (sortedKeys cols) with
              | .error e => .error e
              | .ok (_, fetched) =>
                match applyDtypes lib names (fetched.map lib.ofFetched) args.dtypes with
                | .error e => .error e
                | .ok arrays => makeTable lib names arrays

/-- `read` from the cells on (`common.py:156-339`). -/
def readCells {A D : Type} (env : Env) (lib : Lib A D) (search : Str → Option (Str → Bool))
    (reMatch : Str → Str → Py Bool) (args : ReadArgs D)
    (fresh : Series) (cells : List Cell) : Py (Table A) :=
  match collect env fresh [] cells with
  | .error e => .error e
  | .ok cols => readColumns env lib search reMatch args cols

end Rxls
