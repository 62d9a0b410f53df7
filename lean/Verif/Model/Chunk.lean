import Verif.Model.Casts
import Verif.Model.Strptime

/-!
# `rxls/chunk/chunk.py`

A chunk is a run of cells of one column.  Python objects that are mutated in place (`prepare`) are
modelled by functions that return the new state of the object; `Slot` below keeps track of which
object the caller's list holds.
-/

namespace Rxls

/-- `TYPE_*` and `REPR_*` (`rxls/constants.py:27-35`). -/
def TYPE_STRING : Nat := 0x10
/-- `TYPE_NUMERIC` (`rxls/constants.py:29`). -/
def TYPE_NUMERIC : Nat := 0x20
/-- `REPR_SHARED` (`rxls/constants.py:32`). -/
def REPR_SHARED : Nat := 0x01
/-- `REPR_RKNUMBER` (`rxls/constants.py:32`). -/
def REPR_RKNUMBER : Nat := 0x01
/-- `REPR_BOOLEAN` (`rxls/constants.py:33`). -/
def REPR_BOOLEAN : Nat := 0x02
/-- `REPR_TEMPORAL` (`rxls/constants.py:34`). -/
def REPR_TEMPORAL : Nat := 0x04
/-- `REPR_PREPARED` (`rxls/constants.py:35`). -/
def REPR_PREPARED : Nat := 0x08

/-- `t & flag` as a truth value.  (`rxls/chunk/chunk.py:209,214,218-225`.) -/
def hasBit (t flag : Nat) : Bool := (t &&& flag) != 0

/-- The Arrow types that occur (`chunk.py:46-50`). -/
inductive DType where
  | utf8   -- pa.large_string()
  | f8     -- pa.float64()
  | i8     -- pa.int64()
  | ts     -- pa.timestamp("ms")
  deriving DecidableEq, Repr

/-- A non-null element of an Arrow array.  (`rxls/chunk/chunk.py:46-50`.) -/
inductive Val where
  | str (s : Str)
  | f8 (x : F64)
  | i8 (n : Int)
  | ts (n : Int)
  deriving DecidableEq, Repr

/-- An Arrow array: its type and its elements.  (`rxls/chunk/chunk.py:46-50,304-329`.) -/
structure Arr where
  dtype : DType
  vals : List (Option Val)
  deriving DecidableEq, Repr

/-- Library behaviour the code depends on but does not define.
(`rxls/chunk/casts.py:604,629-635,659-660` and `rxls/chunk/arrow.py:73-75`.) -/
structure Env where
  /-- Arrow's cast of one string to float64; `none` is ArrowInvalid. -/
  parseF8 : Str → Option F64
  /-- Arrow's cast of one string to int64. -/
  parseI8 : Str → Option Int
  /-- Arrow's cast of one string to timestamp. -/
  parseTs : Str → Option Int
  /-- Python `float(text)`; `none` is ValueError. -/
  pyFloat : Str → Option F64
  /-- Python `int(text)`, as used by `np.fromiter`; `none` is ValueError. -/
  pyInt : Str → Option Nat
  /-- Arrow's text of a float64. -/
  renderF8 : F64 → Str
  /-- Arrow's text of an int64. -/
  renderI8 : Int → Str
  /-- Arrow's text of a timestamp. -/
  renderTs : Int → Str
  /-- strptime of one string (polars or Arrow): format, string. -/
  strptime : Str → Option Str → Option Int
  /-- the default format list of `mf_strptime` -/
  formats : List Str

/-- `chunk.data` (`chunk.py:80-86`). -/
inductive Data where
  | nulls (n : Nat)                 -- int
  | strs (l : List (Option Str))    -- Arrow large_string array
  | idx (l : List Nat)              -- Arrow uint32 array, indices of shared strings
  | u32 (l : List (BitVec 32))      -- numpy uint32, RK numbers
  | f8 (l : List F64)               -- numpy float64
  | i8 (l : List Int)               -- numpy int64
  deriving DecidableEq, Repr

/-- `len(data)`; for a null chunk, the number itself.  (`rxls/chunk/chunk.py:92-93,199`.) -/
def Data.length : Data → Nat
  | .nulls n => n
  | .strs l => l.length
  | .idx l => l.length
  | .u32 l => l.length
  | .f8 l => l.length
  | .i8 l => l.length

/-- `chunk` (`chunk.py:78-96`). -/
structure Chunk where
  data : Data := .nulls 0
  typ : Nat := 0
  size : Nat := 0
  sref : List (Option Str) := []
  deriving DecidableEq, Repr

/-- `chunk.nulls` (`chunk.py:98-101`). -/
def Chunk.nulls (n : Nat) : Chunk := ⟨.nulls n, 0, n, []⟩

/-- `chunk.is_empty` (`chunk.py:196-199`). -/
def Chunk.isEmpty (c : Chunk) : Bool := c.data.length == 0

/-- `chunk.is_null` (`chunk.py:201-204`). -/
def Chunk.isNull (c : Chunk) : Bool := c.typ == 0

/-- `chunk.is_numeric` (`chunk.py:206-209`). -/
def Chunk.isNumeric (c : Chunk) : Bool := hasBit c.typ TYPE_NUMERIC

/-- `chunk.is_temporal` (`chunk.py:211-214`). -/
def Chunk.isTemporal (c : Chunk) : Bool := hasBit c.typ TYPE_NUMERIC && hasBit c.typ REPR_TEMPORAL

/-- A Python `slice`.  (`rxls/chunk/chunk.py:53-69`.) -/
structure PySlice where
  start : Option Int := none
  stop : Option Int := none
  step : Option Int := none
  deriving DecidableEq, Repr

/-- Python truth-value `x or d` for an optional integer.  (`rxls/chunk/chunk.py:57,61,65`.) -/
def orInt (x : Option Int) (d : Int) : Int :=
  match x with
  | none => d
  | some 0 => d
  | some i => i

/-- `null_slice` (`chunk.py:53-75`).  `//` and `%` are Python's floor division; `step` is positive when
they are reached. -/
def nullSlice (x : Nat) (s : PySlice) : Int :=
  if x = 0 then 0
  else
    let start := orInt s.start 0
    let start := if start < 0 then x + start else start
    let stop := orInt s.stop x
    let stop := if stop < 0 then x + stop else stop
    let step := orInt s.step 1
    let (start, stop, step) := if step < 0 then (stop, start, -step) else (start, stop, step)
    if stop ≤ start then 0
    else
      let itvl := stop - start
      itvl / step + (if itvl % step ≠ 0 then 1 else 0)

/-- Position of a slice bound in a sequence of length `n` (CPython `PySlice_AdjustIndices`, positive
step), used by numpy and Arrow.  (library behaviour used at `rxls/chunk/chunk.py:275,294`.) -/
def sliceBound (n : Nat) (b : Option Int) (dflt : Nat) : Nat :=
  match b with
  | none => dflt
  | some i => if i < 0 then (i + n).toNat else min i.toNat n

/-- Every `k`-th element, starting with the first.  (library behaviour used at `rxls/chunk/chunk.py:275,294`.) -/
def everyNth {α : Type} (k : Nat) : Nat → List α → List α
  | _, [] => []
  | 0, x :: xs => x :: everyNth k (k - 1) xs
  | j + 1, _ :: xs => everyNth k j xs

/-- `data[s]` on a numpy or Arrow array.  Simplification: only positive steps (the code uses no step).
(library behaviour used at `rxls/chunk/chunk.py:275,294`.) -/
def sliceList {α : Type} (l : List α) (s : PySlice) : List α :=
  everyNth (s.step.getD 1).toNat 0
    ((l.take (sliceBound l.length s.stop l.length)).drop (sliceBound l.length s.start 0))

/-- Elements of `l` where the mask is true.  (`rxls/chunk/chunk.py:278,296`.) -/
def maskList {α : Type} (l : List α) (m : List Bool) : List α :=
  (l.zip m).filterMap fun p => if p.2 then some p.1 else none

/-- `index.true_count`.  (`rxls/chunk/chunk.py:288,367,384`.) -/
def trueCount (m : List Bool) : Nat := (m.filter id).length

/-- The argument of `chunk.take`.  (`rxls/chunk/chunk.py:252`.) -/
inductive TakeIdx where
  | at (i : Int)
  | slice (s : PySlice)
  | mask (m : List Bool)
  deriving DecidableEq, Repr

/-- Selection on the elements of an array: slices, and masks which must have the length of the array
(Arrow `filter` raises ArrowInvalid, numpy IndexError).  (`rxls/chunk/chunk.py:272-278,291-296`.) -/
def selectList {α : Type} (e : PyErr) (l : List α) : TakeIdx → Py (List α)
  | .at i => .ok (sliceList l ⟨some i, some (i + 1), none⟩)
  | .slice s => .ok (sliceList l s)
  | .mask m => if m.length = l.length then .ok (maskList l m) else .error e

/-- `chunk.take` (`chunk.py:252-298`). -/
def Chunk.take (c : Chunk) (index : TakeIdx) : Py Chunk :=
  if hasBit c.typ TYPE_STRING then
    match c.data with
    | .strs l => do
      let d ← selectList .arrowInvalid l index
      .ok ⟨.strs d, c.typ, d.length, c.sref⟩
    | .idx l => do
      let d ← selectList .arrowInvalid l index
      .ok ⟨.idx d, c.typ, d.length, c.sref⟩
    | _ => .error .typeError
  else if c.typ = 0 then
    match index with
    | .at i => .ok (Chunk.nulls (if i < c.size then 1 else 0))
    | .slice s => .ok (Chunk.nulls (nullSlice c.size s).toNat)
    | .mask m => if c.size < m.length then .error .valueError else .ok (Chunk.nulls (trueCount m))
  else
    match c.data with
    | .u32 l => do
      let d ← selectList .indexError l index
      .ok ⟨.u32 d, c.typ, d.length, c.sref⟩
    | .f8 l => do
      let d ← selectList .indexError l index
      .ok ⟨.f8 d, c.typ, d.length, c.sref⟩
    | .i8 l => do
      let d ← selectList .indexError l index
      .ok ⟨.i8 d, c.typ, d.length, c.sref⟩
    | _ => .error .typeError

/-- `take(sref, data)` with `boundscheck=False` (`chunk.py:220`, `chunk/arrow.py:114-121`): an index
outside the table reads foreign memory. -/
def takeShared (sref : List (Option Str)) (l : List Nat) : Py (List (Option Str)) :=
  l.mapM fun i => match sref[i]? with
    | some s => .ok s
    | none => .error .undefinedBehaviour

/-- `chunk.prepare` (`chunk.py:216-228`); returns the new state of the object. -/
def Chunk.prepare (c : Chunk) : Py Chunk :=
  if hasBit c.typ REPR_PREPARED then .ok c
  else if hasBit c.typ TYPE_STRING then
    match c.data with
    | .idx l => do
      let s ← takeShared c.sref l
      .ok { c with data := .strs s, typ := TYPE_STRING ||| REPR_PREPARED }
    | _ => .error .typeError
  else do
    let d1 ← if hasBit c.typ REPR_RKNUMBER then
        match c.data with
        | .u32 l => .ok (.f8 (l.map rkToF8))
        | _ => .error .typeError
      else .ok c.data
    let d2 ← if hasBit c.typ REPR_TEMPORAL then
        match d1 with
        | .f8 l => .ok (.i8 (l.map f8ToMsWin))
        | _ => .error .typeError
      else .ok d1
    .ok { c with data := d2, typ := c.typ ||| REPR_PREPARED }

/-- Arrow's unsafe cast of one value (`unsafe_cast`, `chunk/arrow.py:73-75`).  There is no cast from
float64 to timestamp. -/
def castVal (env : Env) (dst : DType) (v : Val) : Py Val :=
  match v, dst with
  | .str s, .utf8 => .ok (.str s)
  | .str s, .f8 => match env.parseF8 s with | some x => .ok (.f8 x) | none => .error .arrowInvalid
  | .str s, .i8 => match env.parseI8 s with | some x => .ok (.i8 x) | none => .error .arrowInvalid
  | .str s, .ts => match env.parseTs s with | some x => .ok (.ts x) | none => .error .arrowInvalid
  | .f8 x, .utf8 => .ok (.str (env.renderF8 x))
  | .f8 x, .f8 => .ok (.f8 x)
  | .f8 x, .i8 => .ok (.i8 x.toI64)
  | .f8 _, .ts => .error .arrowNotImplemented
  | .i8 n, .utf8 => .ok (.str (env.renderI8 n))
  | .i8 n, .f8 => .ok (.f8 (F64.ofInt n))
  | .i8 n, .i8 => .ok (.i8 n)
  | .i8 n, .ts => .ok (.ts n)
  | .ts n, .utf8 => .ok (.str (env.renderTs n))
  | .ts n, .i8 => .ok (.i8 n)
  | .ts n, .ts => .ok (.ts n)
  | .ts _, .f8 => .error .arrowNotImplemented

/-- Cast of an array: nulls stay null.  (`rxls/chunk/arrow.py:73-75`.) -/
def castVals (env : Env) (dst : DType) (l : List (Option Val)) : Py (List (Option Val)) :=
  l.mapM fun v => match v with
    | none => .ok none
    | some v => (castVal env dst v).map some

/-- Cast of an array, a no-op if it already has the type.  (`rxls/chunk/chunk.py:323-325`.) -/
def castArr (env : Env) (dst : DType) (a : Arr) : Py Arr :=
  if a.dtype = dst then .ok a
  else (castVals env dst a.vals).map fun vs => ⟨dst, vs⟩

/-- The Arrow array that holds the data of a prepared chunk (`chunk.py:316-322`). -/
def Chunk.wrap (c : Chunk) : Py Arr :=
  if hasBit c.typ TYPE_STRING then
    match c.data with
    | .strs l => .ok ⟨.utf8, l.map (·.map Val.str)⟩
    | _ => .error .typeError
  else if hasBit c.typ REPR_TEMPORAL then
    match c.data with
    | .i8 l => .ok ⟨.ts, l.map fun n => some (.ts n)⟩
    | _ => .error .typeError
  else
    match c.data with
    | .f8 l => .ok ⟨.f8, l.map fun x => some (.f8 x)⟩
    | _ => .error .typeError

/-- `chunk.arrow(dest_dtype=dst)` with `strict=True` (`chunk.py:304-329`): the array, and the state of
the object afterwards. -/
def Chunk.arrow (env : Env) (dst : DType) (c : Chunk) : Chunk × Py Arr :=
  if c.typ = 0 then
    match c.data with
    | .nulls n => (c, .ok ⟨dst, List.replicate n none⟩)
    | _ => (c, .error .typeError)
  else
    match c.prepare with
    | .error e => (c, .error e)
    | .ok c' => (c', do castArr env dst (← c'.wrap))

/-- `_unsafe_array(arr, np.float64)` (`casts.py:426-452`): the value buffer without the validity bitmap;
Arrow's cast leaves 0 in a null slot. -/
def unsafeArrayF8 (a : Arr) : List F64 :=
  a.vals.map fun v => match v with
    | some (.f8 x) => x
    | _ => .fin 0

/-- `chunk.as_numeric` (`chunk.py:230-237`): state of the object, and the new chunk (`none` if the
object itself is returned).  The new chunk has `size = 0`, the dataclass default. -/
def Chunk.asNumeric (env : Env) (c : Chunk) : Chunk × Py (Option Chunk) :=
  if c.typ = 0 || hasBit c.typ TYPE_NUMERIC then (c, .ok none)
  else
    match c.arrow env .f8 with
    | (c', .ok a) => (c', .ok (some ⟨.f8 (unsafeArrayF8 a), TYPE_NUMERIC ||| REPR_PREPARED, 0, []⟩))
    | (c', .error e) => (c', .error e)

/-- `chunk.as_temporal` (`chunk.py:239-250`); `none` if the object itself is returned.  `mf_strptime` on an
index array raises `ArrowNotImplementedError` (there is no strptime for uint32). -/
def Chunk.asTemporal (env : Env) (formats : List Str) (c : Chunk) : Py (Option Chunk) :=
  if hasBit c.typ TYPE_NUMERIC then
    if hasBit c.typ REPR_TEMPORAL then .ok none
    else if hasBit c.typ REPR_PREPARED then .ok (some ⟨c.data, TYPE_NUMERIC ||| REPR_TEMPORAL, 0, []⟩)
    else .ok (some ⟨c.data, c.typ ||| REPR_TEMPORAL, 0, []⟩)
  else
    match c.data with
    | .strs l => do
      let r ← mfStrptime env.strptime env.formats l formats true
      .ok (some ⟨.i8 r, TYPE_NUMERIC ||| REPR_TEMPORAL ||| REPR_PREPARED, 0, []⟩)
    | .idx _ => .error .arrowNotImplemented
    | _ => .error .typeError

/-! ## `take_over` -/

/-- One chunk of a selection: `some i` if it is the caller's object number `i`, `none` if it is new.
(`rxls/chunk/chunk.py:331-416`.) -/
abbrev Taken := Chunk × Option Nat

/-- `if offset > 0: _chunk = _chunk.take(slice(offset, None))` (`chunk.py:379,399`). -/
def cutTop (c : Chunk) (i : Nat) (offset : Int) : Py Taken :=
  if 0 < offset then
    match c.take (.slice ⟨some offset, none, none⟩) with
    | .ok c' => .ok (c', none)
    | .error e => .error e
  else .ok (c, some i)

/-- `if length and cum_len > length: …` (`chunk.py:404-405`). -/
def cutBottom (t : Taken) (length cum : Int) : Py Taken :=
  if length ≠ 0 ∧ length < cum then
    match t.1.take (.slice ⟨none, some (t.1.size + length - cum), none⟩) with
    | .ok c' => .ok (c', none)
    | .error e => .error e
  else .ok t

/-- `if _chunk.size: result.append(_chunk)`.  (`rxls/chunk/chunk.py:389-390,407-408`.) -/
def keepTaken (t : Taken) : List Taken := if t.1.size ≠ 0 then [t] else []

/-- The loop without index (`chunk.py:393-411`): taken chunks and cumulated length. -/
def takeLoop (length : Int) : List Chunk → Nat → Int → Int → Py (List Taken × Int)
  | [], _, _, cum => .ok ([], cum)
  | c :: cs, i, offset, cum =>
    if 0 < offset ∧ (c.size : Int) ≤ offset then
      takeLoop length cs (i + 1) (offset - c.size) cum
    else
      match cutTop c i offset with
      | .error e => .error e
      | .ok t1 =>
        let cum := cum + t1.1.size
        match cutBottom t1 length cum with
        | .error e => .error e
        | .ok t2 =>
          if length ≤ cum then .ok (keepTaken t2, cum)
          else
            match takeLoop length cs (i + 1) (if 0 < offset then 0 else offset) cum with
            | .error e => .error e
            | .ok (rest, cum) => .ok (keepTaken t2 ++ rest, cum)

/-- The loop with index (`chunk.py:372-391`). -/
def takeLoopIdx (index : List Bool) : List Chunk → Nat → Int → Int → Py (List Taken × Int)
  | [], _, _, cum => .ok ([], cum)
  | c :: cs, idxOff, offset, cum =>
    if 0 < offset ∧ (c.size : Int) ≤ offset then
      takeLoopIdx index cs idxOff (offset - c.size) cum
    else
      match cutTop c 0 offset with
      | .error e => .error e
      | .ok (c1, _) =>
        let offset := if 0 < offset then 0 else offset
        let cIdx := (index.drop idxOff).take c1.size
        let idxOff := idxOff + c1.size
        if trueCount cIdx = 0 then takeLoopIdx index cs idxOff offset cum
        else
          match c1.take (.slice ⟨none, some cIdx.length, none⟩) with
          | .error e => .error e
          | .ok c2 =>
            match c2.take (.mask cIdx) with
            | .error e => .error e
            | .ok it =>
              match takeLoopIdx index cs idxOff offset (if it.size ≠ 0 then cum + it.size else cum) with
              | .error e => .error e
              | .ok (rest, cum) => .ok (keepTaken (it, none) ++ rest, cum)

/-- `chunk.take_over` (`chunk.py:331-416`). -/
def takeOver (chunks : List Chunk) (offset length : Int) (index : Option (List Bool)) :
    Py (List Taken) :=
  match index with
  | some m =>
    if trueCount m = 0 then .ok []
    else
      match takeLoopIdx m chunks 0 offset 0 with
      | .error e => .error e
      | .ok (r, cum) =>
        .ok (r ++ if cum < trueCount m then [(Chunk.nulls (trueCount m - cum).toNat, none)] else [])
  | none =>
    match takeLoop length chunks 0 offset 0 with
    | .error e => .error e
    | .ok (r, cum) =>
      .ok (r ++ if length ≠ 0 ∧ cum < length then [(Chunk.nulls (length - cum).toNat, none)] else [])

/-! ## `concatenate` -/

/-- An entry of the list that `concatenate` works on: the object that was in the list at the start,
and the object that replaced it, if any.  (`rxls/chunk/chunk.py:459-507`.) -/
structure Slot where
  obj : Chunk
  rep : Option Chunk := none
  deriving DecidableEq, Repr

/-- `chunks[i]`.  (`rxls/chunk/chunk.py:483,487`.) -/
def Slot.cur (s : Slot) : Chunk := s.rep.getD s.obj

/-- In-place mutation of `chunks[i]`.  (`rxls/chunk/chunk.py:216-228,525`.) -/
def Slot.mutate (s : Slot) (c : Chunk) : Slot :=
  match s.rep with
  | none => { s with obj := c }
  | some _ => { s with rep := some c }

/-- `chunks[i] = new` (`none`: `new` is `chunks[i]` itself).  (`rxls/chunk/chunk.py:483,487,491,502`.) -/
def Slot.replace (s : Slot) (c : Option Chunk) : Slot :=
  match c with
  | none => s
  | some c => { s with rep := some c }

/-- A pass over the list, left to right, stopping at the first exception; the state of every entry is
kept.  (`rxls/chunk/chunk.py:482-505,519-529`.) -/
def passSlots {α : Type} (f : Slot → Slot × Py α) : List Slot → List Slot × Py (List α)
  | [] => ([], .ok [])
  | s :: ss =>
    match f s with
    | (s', .error e) => (s' :: ss, .error e)
    | (s', .ok a) =>
      match passSlots f ss with
      | (ss', .error e) => (s' :: ss', .error e)
      | (ss', .ok as) => (s' :: ss', .ok (a :: as))

/-- The parameters of `concatenate` (`chunk.py:426-429`). -/
structure ConcatOpts where
  confDt : Bool
  confNum : Bool
  formats : List Str
  prec : Nat
  deriving Repr

/-- Classification (`chunk.py:467-475`): null, string, temporal, number. -/
inductive Cls where
  | null | utf8 | temp | nums
  deriving DecidableEq, Repr

/-- The class of a chunk (`rxls/chunk/chunk.py:467-475`). -/
def Chunk.cls (c : Chunk) : Cls :=
  if c.typ = 0 then .null
  else if hasBit c.typ TYPE_STRING then .utf8
  else if hasBit c.typ REPR_TEMPORAL then .temp
  else .nums

/-- `chunks[i] = chunks[i].as_temporal()` for a number (`chunk.py:481-483`). -/
def stepNumTemporal (env : Env) (s : Slot) : Slot × Py Bool :=
  if s.cur.cls = .nums then
    match s.cur.asTemporal env [] with
    | .ok r => (s.replace r, .ok false)
    | .error e => (s, .error e)
  else (s, .ok false)

/-- The conversion of one string chunk to timestamps, with its two `except` clauses
(`chunk.py:484-495`).  `ok true` means that the fallback flag is set. -/
def stepStrTemporal (env : Env) (o : ConcatOpts) (s : Slot) : Slot × Py Bool :=
  if s.cur.cls = .utf8 then
    match s.cur.asTemporal env o.formats with
    | .ok r => (s.replace r, .ok false)
    | .error .arrowInvalid =>
      if o.confNum then
        match s.cur.asNumeric env with
        | (c', .ok r) =>
          let s := s.mutate c'
          match (r.getD s.cur).asTemporal env [] with
          | .ok r2 => (s.replace (some (r2.getD (r.getD s.cur))), .ok false)
          | .error .arrowInvalid => (s, .ok true)
          | .error e => (s, .error e)
        | (c', .error .arrowInvalid) => (s.mutate c', .ok true)
        | (c', .error e) => (s.mutate c', .error e)
      else (s, .ok true)
    | .error e => (s, .error e)
  else (s, .ok false)

/-- The conversion loop of string chunks to numbers, which stops at the first failure
(`chunk.py:498-507`): fallback flag. -/
def strNumericLoop (env : Env) : List Slot → List Slot × Py Bool
  | [] => ([], .ok false)
  | s :: ss =>
    if s.cur.cls = .utf8 then
      match s.cur.asNumeric env with
      | (c', .ok r) =>
        let s' := (s.mutate c').replace r
        match strNumericLoop env ss with
        | (ss', r) => (s' :: ss', r)
      | (c', .error .arrowInvalid) => (s.mutate c' :: ss, .ok true)
      | (c', .error e) => (s.mutate c' :: ss, .error e)
    else
      match strNumericLoop env ss with
      | (ss', r) => (s :: ss', r)

/-- The integer check (`chunk.py:518-531`): prepares chunks until one is not integral. -/
def intLoop (prec : Nat) : List Slot → List Slot × Py Bool
  | [] => ([], .ok true)
  | s :: ss =>
    if s.cur.typ = 0 then
      match intLoop prec ss with
      | (ss', r) => (s :: ss', r)
    else
      match s.cur.prepare with
      | .error e => (s :: ss, .error e)
      | .ok c' =>
        let s := s.mutate c'
        match c'.data with
        | .f8 l =>
          if f8IsI8 l prec then
            match intLoop prec ss with
            | (ss', r) => (s :: ss', r)
          else (s :: ss, .ok false)
        | _ => (s :: ss, .error .typeError)

/-- `x.arrow(dest_dtype=dtype)` on one entry.  (`rxls/chunk/chunk.py:536`.) -/
def stepArrow (env : Env) (dt : DType) (s : Slot) : Slot × Py Arr :=
  match s.cur.arrow env dt with
  | (c', r) => (s.mutate c', r)

/-- The conversion phase (`chunk.py:477-507`): fallback flag. -/
def convertPhase (env : Env) (o : ConcatOpts) (ss : List Slot) : List Slot × Py Bool :=
  let hasT := ss.any fun s => s.cur.cls == .temp
  let hasN := ss.any fun s => s.cur.cls == .nums
  let hasS := ss.any fun s => s.cur.cls == .utf8
  if hasT then
    if o.confDt then
      match passSlots (stepNumTemporal env) ss with
      | (ss, .error e) => (ss, .error e)
      | (ss, .ok _) =>
        match passSlots (stepStrTemporal env o) ss with
        | (ss, .error e) => (ss, .error e)
        | (ss, .ok fs) => (ss, .ok (fs.any id))
    else (ss, .ok (hasN || hasS))
  else if hasN && hasS then
    if o.confNum then strNumericLoop env ss
    else (ss, .ok true)
  else (ss, .ok false)

/-- The choice of the result type (`chunk.py:509-533`).  `hasT`, `hasN` are the classification before
the conversions. -/
def typePhase (o : ConcatOpts) (hasT hasN fallback : Bool) (ss : List Slot) : List Slot × Py DType :=
  if fallback then (ss, .ok .utf8)
  else if hasT then (ss, .ok .ts)
  else if hasN then
    match intLoop o.prec ss with
    | (ss, .ok b) => (ss, .ok (if b then .i8 else .f8))
    | (ss, .error e) => (ss, .error e)
  else (ss, .ok .utf8)

/-- `chunk.concatenate` after the selection (`chunk.py:462-537`): result and final state of the list.
`pa.chunked_array([])` without a type raises ValueError. -/
def concatSlots (env : Env) (o : ConcatOpts) (ss : List Slot) : List Slot × Py Arr :=
  let hasT := ss.any fun s => s.cur.cls == .temp
  let hasN := ss.any fun s => s.cur.cls == .nums
  match convertPhase env o ss with
  | (ss, .error e) => (ss, .error e)
  | (ss, .ok fallback) =>
    match typePhase o hasT hasN fallback ss with
    | (ss, .error e) => (ss, .error e)
    | (ss, .ok dt) =>
      match passSlots (stepArrow env dt) ss with
      | (ss, .error e) => (ss, .error e)
      | (ss, .ok arrs) =>
        if arrs.isEmpty then (ss, .error .valueError)
        else (ss, .ok ⟨dt, arrs.flatMap (·.vals)⟩)

/-- Writes the mutated objects back to the list they came from.  (`rxls/chunk/chunk.py:216-228,419-420`.) -/
def writeBack (orig : List Chunk) (taken : List Taken) (ss : List Slot) : List Chunk :=
  (taken.zip ss).foldl (fun acc p => match p.1.2 with
    | some i => acc.set i p.2.obj
    | none => acc) orig

/-- `chunk.concatenate` (`chunk.py:418-537`): the result and the state of the caller's list.  Without a
window the caller's list itself is worked on, so that replaced entries stay replaced. -/
def concatenate (env : Env) (o : ConcatOpts) (chunks : List Chunk) (offset length : Int)
    (index : Option (List Bool)) : List Chunk × Py Arr :=
  if offset ≠ 0 ∨ length ≠ 0 ∨ index.isSome then
    match takeOver chunks offset length index with
    | .error e => (chunks, .error e)
    | .ok taken =>
      match concatSlots env o (taken.map fun t => ⟨t.1, none⟩) with
      | (ss, r) => (writeBack chunks taken ss, r)
  else
    match concatSlots env o (chunks.map fun c => ⟨c, none⟩) with
    | (ss, r) => (ss.map Slot.cur, r)

end Rxls
