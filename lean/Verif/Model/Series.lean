import Verif.Model.Chunk

/-!
# Building a column: `rxls/cell.py`, the chunk constructors of `rxls/chunk/chunk.py`, `rxls/series.py`
-/

namespace Rxls

/-- `cell.val`: bytes for numbers and shared-string indices of XLSB, text otherwise.  XLSX delivers UTF-8
bytes of the text; they are modelled as the text.  (`rxls/cell.py:24-27`.) -/
inductive Raw where
  | bytes (b : Bytes)
  | text (s : Str)
  deriving DecidableEq, Repr

/-- `cell` (`cell.py:9-27`). -/
structure Cell where
  row : Nat
  col : Int
  xdt : Nat
  val : Raw
  deriving DecidableEq, Repr

/-- `b"".join(data)`; a string among the items is a TypeError.  (`rxls/chunk/casts.py:517,549`.) -/
def joinRaw : List Raw → Py Bytes
  | [] => .ok []
  | .bytes b :: rest =>
    match joinRaw rest with
    | .ok r => .ok (b ++ r)
    | .error e => .error e
  | .text _ :: _ => .error .typeError

/-- Little-endian value.  (library behaviour used at `rxls/chunk/casts.py:517,549`.) -/
def leNat : Bytes → Nat
  | [] => 0
  | b :: bs => b.toNat + 256 * leNat bs

/-- Consecutive pieces of `w` bytes, at most `n` of them.  (library behaviour used at `rxls/chunk/casts.py:517,549`.) -/
def piecesOf (w : Nat) : Nat → Bytes → List Bytes
  | 0, _ => []
  | n + 1, b => b.take w :: piecesOf w n (b.drop w)

/-- `_unsafe_data_to_array(data, dtype)` (`casts.py:522-549`) for a type of `w` bytes: `np.frombuffer` raises
ValueError when the buffer is not a whole number of elements. -/
def dataToArray (w : Nat) (data : List Raw) : Py (List Nat) :=
  match joinRaw data with
  | .error e => .error e
  | .ok b =>
    if b.length % w ≠ 0 then .error .valueError
    else .ok ((piecesOf w (b.length / w) b).map leNat)

/-- `_unsafe_data_to_arrow(data, uint32)` (`casts.py:486-519`): `len(data)` elements over the joined buffer,
whose length is not checked; reading past its end is undefined. -/
def dataToArrow (w : Nat) (data : List Raw) : Py (List Nat) :=
  match joinRaw data with
  | .error e => .error e
  | .ok b =>
    if b.length < w * data.length then .error .undefinedBehaviour
    else .ok ((piecesOf w data.length b).map leNat)

/-- `pa.array(data, large_string())` on texts.  The readers never pass bytes here.  (`rxls/chunk/chunk.py:142,163`.) -/
def textArray : List Raw → Py (List (Option Str))
  | [] => .ok []
  | .text s :: rest =>
    match textArray rest with
    | .ok r => .ok (some s :: r)
    | .error e => .error e
  | .bytes _ :: _ => .error .arrowInvalid

/-- `np.fromiter(data, np.uint32)`: ValueError for a text that is no integer, OverflowError outside
32 bits.  (`rxls/chunk/casts.py:604` (`rxls/chunk/chunk.py:135`).) -/
def fromiterU32 (env : Env) : List Raw → Py (List Nat)
  | [] => .ok []
  | .text s :: rest =>
    match env.pyInt s with
    | none => .error .valueError
    | some n =>
      if 2 ^ 32 ≤ n then .error .overflowError
      else
        match fromiterU32 env rest with
        | .ok r => .ok (n :: r)
        | .error e => .error e
  | .bytes _ :: _ => .error .valueError

/-- `np.fromiter(data, np.float64)`.  (`rxls/chunk/casts.py:604` (`rxls/chunk/chunk.py:112`).) -/
def fromiterF8 (env : Env) : List Raw → Py (List F64)
  | [] => .ok []
  | .text s :: rest =>
    match env.pyFloat s with
    | none => .error .valueError
    | some x =>
      match fromiterF8 env rest with
      | .ok r => .ok (x :: r)
      | .error e => .error e
  | .bytes _ :: _ => .error .valueError

/-- `chunk.xlsx_strings` (`chunk.py:121-142`). -/
def Chunk.xlsxStrings (env : Env) (data : List Raw) (isShared : Bool) (shareds : List (Option Str)) : Py Chunk :=
  if isShared then
    match fromiterU32 env data with
    | .ok l => .ok ⟨.idx l, TYPE_STRING ||| REPR_SHARED, data.length, shareds⟩
    | .error e => .error e
  else
    match textArray data with
    | .ok l => .ok ⟨.strs l, TYPE_STRING ||| REPR_PREPARED, data.length, []⟩
    | .error e => .error e

/-- `chunk.xlsx_numeric` (`chunk.py:103-119`): if any text is no number, the whole run becomes strings. -/
def Chunk.xlsxNumeric (env : Env) (data : List Raw) (isTemporal : Bool) : Py Chunk :=
  match fromiterF8 env data with
  | .ok l =>
    .ok ⟨.f8 l, TYPE_NUMERIC ||| (if isTemporal then REPR_TEMPORAL else 0) |||
      (if isTemporal then 0 else REPR_PREPARED), data.length, []⟩
  | .error .valueError => Chunk.xlsxStrings env data false []
  | .error e => .error e

/-- `chunk.xlsb_strings` (`chunk.py:144-166`). -/
def Chunk.xlsbStrings (data : List Raw) (isShared : Bool) (shareds : List (Option Str)) : Py Chunk :=
  if isShared then
    match dataToArrow 4 data with
    | .ok l => .ok ⟨.idx l, TYPE_STRING ||| REPR_SHARED, data.length, shareds⟩
    | .error e => .error e
  else
    match textArray data with
    | .ok l => .ok ⟨.strs l, TYPE_STRING ||| REPR_PREPARED, data.length, []⟩
    | .error e => .error e

/-- `chunk.xlsb_numeric` (`chunk.py:168-194`). -/
def Chunk.xlsbNumeric (data : List Raw) (isBoolean isTemporal isRk : Bool) : Py Chunk :=
  let typ := TYPE_NUMERIC ||| (if isTemporal then REPR_TEMPORAL else 0) |||
    (if isRk then REPR_RKNUMBER else 0) ||| (if isTemporal || isRk then 0 else REPR_PREPARED)
  if isRk then
    match dataToArray 4 data with
    | .ok l => .ok ⟨.u32 (l.map (BitVec.ofNat 32)), typ, data.length, []⟩
    | .error e => .error e
  else if isBoolean then
    match dataToArray 1 data with
    | .ok l => .ok ⟨.f8 (l.map fun n : Nat => .fin (n : ℚ)), typ, data.length, []⟩
    | .error e => .error e
  else
    match dataToArray 8 data with
    | .ok l => .ok ⟨.f8 (l.map F64.ofBits), typ, data.length, []⟩
    | .error e => .error e

/-- `xl_series` (`series.py:32-70`). -/
structure Series where
  chunks : List Chunk := []
  cur : List Raw := []
  xdtr : Nat := 0
  sRow : Int := -1
  eRow : Int := -1
  chOff : Nat := 0
  shared : List (Option Str)
  binary : Bool
  opts : ConcatOpts

/-- `xl_series.__len__` (`series.py:72-73`). -/
def Series.len (s : Series) : Int := s.eRow - s.sRow + 1

/-- The chunk made from one run of raw values (`series.py:77-100`). -/
def makeChunk (env : Env) (binary : Bool) (shared : List (Option Str)) (xdt : Nat) (vals : List Raw) : Py Chunk :=
  if hasBit xdt TYPE_STRING then
    if binary then Chunk.xlsbStrings vals (hasBit xdt REPR_SHARED) shared
    else Chunk.xlsxStrings env vals (hasBit xdt REPR_SHARED) shared
  else if binary then
    Chunk.xlsbNumeric vals (hasBit xdt REPR_BOOLEAN) (hasBit xdt REPR_TEMPORAL) (hasBit xdt REPR_RKNUMBER)
  else Chunk.xlsxNumeric env vals (hasBit xdt REPR_TEMPORAL)

/-- `xl_series.__pull_chunk` (`series.py:75-109`). -/
def Series.pull (env : Env) (s : Series) : Py Series :=
  match makeChunk env s.binary s.shared s.xdtr s.cur with
  | .error e => .error e
  | .ok c =>
    .ok { s with
      chunks := s.chunks ++ (if s.chOff ≠ 0 then [Chunk.nulls s.chOff] else []) ++ [c]
      chOff := 0
      cur := [] }

/-- `if self.__chunk: self.__pull_chunk()`.  (`rxls/series.py:120-121,129-130,159-160,183-184`.) -/
def Series.flush (env : Env) (s : Series) : Py Series :=
  if s.cur.isEmpty then .ok s else s.pull env

/-- The gap before a cell (`series.py:117-125`). -/
def Series.gap (env : Env) (s : Series) (row : Nat) : Py Series :=
  if (row : Int) > s.eRow + 1 then
    match s.flush env with
    | .error e => .error e
    | .ok s => .ok { s with chOff := ((row : Int) - s.eRow - 1).toNat, xdtr := 0 }
  else .ok s

/-- The change of type (`series.py:127-131`). -/
def Series.retype (env : Env) (s : Series) (xdt : Nat) : Py Series :=
  if xdt ≠ s.xdtr then
    match s.flush env with
    | .error e => .error e
    | .ok s => .ok { s with xdtr := xdt }
  else .ok s

/-- `xl_series.add` (`series.py:111-142`). -/
def Series.add (env : Env) (s : Series) (c : Cell) : Py Series :=
  if (c.row : Int) ≤ s.eRow then .ok s
  else
    match s.gap env c.row with
    | .error e => .error e
    | .ok s =>
      match s.retype env c.xdt with
      | .error e => .error e
      | .ok s =>
        .ok { s with
          cur := s.cur ++ [c.val]
          eRow := c.row
          sRow := if s.sRow < 0 then c.row else s.sRow }

/-- Adding cells one after the other.  (`rxls/reader/common.py:159-176`.) -/
def Series.addAll (env : Env) : List Cell → Series → Py Series
  | [], s => .ok s
  | c :: cs, s =>
    match s.add env c with
    | .error e => .error e
    | .ok s => Series.addAll env cs s

/-- What `to_arrow` returns: an untyped null array, or a typed one.  (`rxls/series.py:185-198`.) -/
inductive Fetched where
  | nulls (n : Nat)
  | arr (a : Arr)
  deriving DecidableEq, Repr

/-- `xl_series.to_arrow` (`series.py:176-198`): state of the series afterwards, and the array. -/
def Series.toArrow (env : Env) (s : Series) (offset length : Int) (idx : Option (List Bool)) :
    Series × Py Fetched :=
  match s.flush env with
  | .error e => (s, .error e)
  | .ok s =>
    if s.chunks.isEmpty then (s, .ok (.nulls length.toNat))
    else
      match concatenate env s.opts s.chunks offset length idx with
      | (cs, .ok a) => ({ s with chunks := cs }, .ok (.arr a))
      | (cs, .error e) => ({ s with chunks := cs }, .error e)

/-- `xl_series.to_utf8` (`series.py:144-174`): the final `.cast("large_string")` is modelled by the same cast
as `unsafe_cast`. -/
def Series.toUtf8 (env : Env) (s : Series) (offset length : Int) (idx : Option (List Bool)) :
    Series × Py (List (Option Val)) :=
  match s.toArrow env offset length idx with
  | (s, .ok (.nulls n)) => (s, .ok (List.replicate n none))
  | (s, .ok (.arr a)) =>
    (s, match castArr env .utf8 a with
      | .ok a => .ok a.vals
      | .error e => .error e)
  | (s, .error e) => (s, .error e)

end Rxls
