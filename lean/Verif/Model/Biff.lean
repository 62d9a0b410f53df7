import Verif.Model.Prelude

/-!
# Model of `rxls/biff.py`

`dump_sz`, `record`, and both variants of `scan_biff`.  A binary stream is the list of bytes that
remain to be read: `io.read(n)` returns `take n` and leaves `drop n`.
-/

namespace Rxls

/-- `dump_sz`, `rxls/biff.py:29-45`.  (Negative `i` is not modelled.) -/
def dumpSz (i : Nat) : Py Bytes :=
  if i < 0x80 then packBs [i]
  else if i < 0x4000 then packBs [i &&& 0x7F ||| 0x80, i >>> 7]
  else if i < 0x200000 then packBs [i &&& 0x7F ||| 0x80, (i >>> 7) &&& 0x7F ||| 0x80, i >>> 14]
  else packBs [i &&& 0x7F ||| 0x80, (i >>> 7) &&& 0x7F ||| 0x80, (i >>> 14) &&& 0x7F ||| 0x80, i >>> 21]

/-- `class record`, `rxls/biff.py:48-51`.  Ids are taken non-negative. -/
structure Record where
  recId : Nat
  data : Bytes
  deriving DecidableEq, Repr

/-- Id field written by `record.as_binary`, `rxls/biff.py:87`. -/
def idField (recId : Nat) : Py Bytes :=
  if recId &&& 0x80 ≠ 0 then packH recId else packBs [recId]

/-- Size field written by `record.as_binary`, `rxls/biff.py:88-99` (written out again in the source,
branch by branch as here; not a call to `dump_sz`). -/
def sizeField (sz : Nat) : Py Bytes :=
  if sz < 0x80 then packBs [sz]
  else if sz < 0x4000 then packBs [sz &&& 0x7F ||| 0x80, sz >>> 7]
  else if sz < 0x200000 then
    packBs [sz &&& 0x7F ||| 0x80, (sz >>> 7) &&& 0x7F ||| 0x80, sz >>> 14]
  else
    packBs [sz &&& 0x7F ||| 0x80, (sz >>> 7) &&& 0x7F ||| 0x80,
            (sz >>> 14) &&& 0x7F ||| 0x80, sz >>> 21]

/-- `record.as_binary`, `rxls/biff.py:83-102`. -/
def Record.asBinary (r : Record) : Py Bytes := do
  let idB ← idField r.recId
  let szB ← sizeField r.data.length
  .ok (idB ++ szB ++ r.data)

/-- `record.dump(io)`, `rxls/biff.py:104-107`, on a stream that has been written sequentially:
`written` is what the stream holds so far; returns the new contents and `io.tell()`. -/
def Record.dump (r : Record) (written : Bytes) : Py (Bytes × Nat) := do
  let b ← r.asBinary
  let io := written ++ b
  .ok (io, io.length)

/-- `record.from_data(id, *data)` with an integer id, `rxls/biff.py:71-81`. -/
def Record.fromData (id : Nat) (data : List Bytes) : Record :=
  if data.isEmpty then ⟨id, []⟩ else ⟨id, data.flatten⟩

/-- `io.read(1)[0]`: next byte as an int, `IndexError` at end of stream.  (`rxls/biff.py:218,220,223-229`.) -/
def readByte : Bytes → Py (Nat × Bytes)
  | [] => .error .indexError
  | b :: bs => .ok (b.toNat, bs)

/-- The size part of the header, `rxls/biff.py:222-229`. -/
def readSize (io : Bytes) : Py (Nat × Bytes) := do
  let (sz, io) ← readByte io
  if sz &&& 0x80 ≠ 0 then
    let (b, io) ← readByte io
    let sz := sz ^^^ 0x80 ||| (b <<< 7)
    if sz &&& 0x4000 ≠ 0 then
      let (b, io) ← readByte io
      let sz := sz ^^^ 0x4000 ||| (b <<< 14)
      if sz &&& 0x200000 ≠ 0 then
        let (b, io) ← readByte io
        let sz := sz ^^^ 0x200000 ||| (b <<< 21)
        .ok (sz, io)
      else .ok (sz, io)
    else .ok (sz, io)
  else .ok (sz, io)

/-- The id part of the header, `rxls/biff.py:217-220`. -/
def readId (io : Bytes) : Py (Nat × Bytes) := do
  let (id, io) ← readByte io
  if id &&& 0x80 ≠ 0 then
    let (b, io) ← readByte io
    .ok (id ||| (b <<< 8), io)
  else .ok (id, io)

/-- What one iteration of the plain scanner's `while True` does.  (`rxls/biff.py:216-243`.) -/
inductive ScanStep where
  | brk                              -- `break`
  | emit (r : Record) (io : Bytes)   -- `yield record(..)`
  | skip (io : Bytes)                -- record not in `only`

/-- `not only or id in only`, `rxls/biff.py:232`: `None` and the empty set select everything. -/
def selectedPlain (only : OnlySet) (id : Nat) : Bool :=
  match only with
  | none => true
  | some s => s.isEmpty || s.contains id

/-- Body of the `while True` loop of the plain `scan_biff`, `rxls/biff.py:217-243`. -/
def scanStep (only : OnlySet) (io : Bytes) : Py ScanStep := do
  let (id, io) ← readId io
  let (sz, io) ← readSize io
  if selectedPlain only id then
    if sz ≠ 0 then
      let data := io.take sz
      if data.length ≠ sz then .ok .brk
      else .ok (.emit ⟨id, data⟩ (io.drop sz))
    else .ok (.emit ⟨id, []⟩ io)
  else if sz ≠ 0 then .ok (.skip (io.drop sz))
  else .ok (.skip io)

/-- Exhausting the plain `scan_biff`, `rxls/biff.py:214-245`, with a bound on the number of loop
iterations; `none` means the bound was hit.  Any exception raised in the body that is not
`IndexError` would escape; `readByte` only raises `IndexError`, so it always ends the generator. -/
def scanFuel (only : OnlySet) : Nat → Bytes → Option (List Record)
  | 0, _ => none
  | n + 1, io =>
    match scanStep only io with
    | .error _ => some []
    | .ok .brk => some []
    | .ok (.emit r io') => (scanFuel only n io').map (r :: ·)
    | .ok (.skip io') => scanFuel only n io'

/-- Plain `scan_biff`: the records it yields (`scanFuel_total` shows the bound is never hit).
(`rxls/biff.py:214-245`.) -/
def scanBiff (only : OnlySet) (io : Bytes) : List Record :=
  (scanFuel only (io.length + 1) io).getD []

/-! ## The numba variant -/

/-- Reinterpretation of a 16-bit word as `np.int16`.  (`rxls/biff.py:121,124,127`.) -/
def toInt16 (n : Nat) : Int :=
  if n % 65536 < 32768 then (n % 65536 : Int) else (n % 65536 : Int) - 65536

/-- Header at `offset`, `rxls/biff.py:124-140`: id as `np.int16`, size, offset after the header.
`none` is the swallowed exception of reading past the end of the chunk.  (Compiled numba code does
not bounds-check; it then reads garbage, leaves `offset > ch_len` and takes the `break` on line 142,
which has the same effect.) -/
def hdrAt (chunk : Bytes) (offset : Nat) : Option (Int × Nat × Nat) := do
  let b0 := (← chunk[offset]?).toNat
  let (id, offset) ←
    if b0 &&& 0x80 ≠ 0 then do
      let b1 := (← chunk[offset + 1]?).toNat
      pure (toInt16 (b0 ||| (b1 <<< 8)), offset + 2)
    else pure (toInt16 b0, offset + 1)
  let sz := (← chunk[offset]?).toNat
  let offset := offset + 1
  if sz &&& 0x80 ≠ 0 then
    let b := (← chunk[offset]?).toNat
    let sz := (sz &&& 0x7F) ||| (b <<< 7)
    let offset := offset + 1
    if sz &&& 0x4000 ≠ 0 then
      let b := (← chunk[offset]?).toNat
      let sz := (sz &&& 0x3FFF) ||| (b <<< 14)
      let offset := offset + 1
      if sz &&& 0x200000 ≠ 0 then
        let b := (← chunk[offset]?).toNat
        let sz := (sz &&& 0x1FFFFF) ||| (b <<< 21)
        let offset := offset + 1
        pure (id, sz, offset)
      else pure (id, sz, offset)
    else pure (id, sz, offset)
  else pure (id, sz, offset)

/-- `only is None` or `id in only`, `rxls/biff.py:144-147`: here the empty set selects nothing. -/
def selectedNumba (only : OnlySet) (id : Int) : Bool :=
  match only with
  | none => true
  | some s => s.any (fun k => (k : Int) == id)

/-- The `while True` loop of `scan_chunk`, `rxls/biff.py:123-152`: the list of yielded triples.
The first argument bounds the iterations; each iteration advances `offset`, so `len(chunk) + 1`
iterations are never exceeded (`scanChunk_fuel`). -/
def scanChunkLoop (chunk : Bytes) (only : OnlySet) :
    Nat → Nat → Nat → List (Int × Nat × Bytes)
  | 0, _, preoff => [(-1, preoff, [])]
  | n + 1, offset, preoff =>
    match hdrAt chunk offset with
    | none => [(-1, preoff, [])]
    | some (id, sz, off) =>
      if off + sz > chunk.length then [(-1, preoff, [])]
      else
        (if selectedNumba only id then [(id, sz, pySlice chunk off (off + sz))] else [])
          ++ scanChunkLoop chunk only n (off + sz) (off + sz)

/-- `scan_chunk`, `rxls/biff.py:114-153`. -/
def scanChunk (chunk : Bytes) (only : OnlySet) : List (Int × Nat × Bytes) :=
  scanChunkLoop chunk only (chunk.length + 1) 0 0

/-- The `for` loop of the numba `scan_biff`, `rxls/biff.py:206-210`: negative ids cut the chunk,
others are yielded. -/
def consumeYields : List (Int × Nat × Bytes) → Bytes → Bytes × List Record
  | [], chunk => (chunk, [])
  | (i, o, d) :: ys, chunk =>
    if i < 0 then consumeYields ys (chunk.drop o)
    else
      let (chunk', out) := consumeYields ys chunk
      (chunk', ⟨i.toNat, d⟩ :: out)

/-- The numba `scan_biff`, `rxls/biff.py:200-210`, run for at most `n` iterations of its `while`
loop: the records yielded so far and whether the generator has finished.  `blk` is the block size
(`2**16` in the source). -/
def numbaRun (blk : Nat) (only : OnlySet) : Nat → Bytes → Bytes → List Record × Bool
  | 0, _, _ => ([], false)
  | n + 1, chunk, io =>
    let chunk := chunk ++ io.take blk
    if chunk.isEmpty then ([], true)
    else
      let (chunk', out) := consumeYields (scanChunk chunk only) chunk
      let (more, fin) := numbaRun blk only n chunk' (io.drop blk)
      (out ++ more, fin)

/-- Block size used by the source, `rxls/biff.py:205`. -/
def numbaBlock : Nat := 65536

end Rxls
