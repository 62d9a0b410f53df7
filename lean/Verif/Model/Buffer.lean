import Verif.Model.Series

/-! # Raw views of Arrow buffers -/

namespace Rxls

/-- What `pa.Array.buffers()` shows of an array of elements of fixed size: the value buffer, the part of it that the
array covers, and the validity bitmap (absent when nothing is null), here with one entry per element of the array.
Simplification: the bitmap is not packed.  (library behaviour used at `rxls/chunk/casts.py:452`.) -/
structure FixedArray where
  buf : Bytes
  offset : Nat := 0
  length : Nat
  valid : Option (List Bool) := none
  deriving DecidableEq, Repr

/-- `_unsafe_array(arr, dtype)` (`casts.py:426-452`) for a dtype of `w` bytes: `np.frombuffer` on the last buffer.
Neither the offset nor the length of the array nor its bitmap is consulted.  ValueError when the buffer is not a whole
number of elements.  Simplification: elements are little-endian numbers; the type gives them their meaning. -/
def unsafeArray (w : Nat) (arr : FixedArray) : Py (List Nat) :=
  if arr.buf.length % w ≠ 0 then .error .valueError
  else .ok ((piecesOf w (arr.buf.length / w) arr.buf).map leNat)

/-- The bytes of a number, least significant first.  (library behaviour used at `rxls/chunk/casts.py:483`.) -/
def leBytes : Nat → Nat → Bytes
  | 0, _ => []
  | w + 1, n => UInt8.ofNat (n % 256) :: leBytes w (n / 256)

/-- `_unsafe_arrow(arr, dtype)` (`casts.py:455-483`) on a numpy array of elements of `w` bytes:
`from_buffers(dtype, len(arr), (None, arr.data), 0)`.  The dtype is compared with nothing. -/
def unsafeArrow (w : Nat) (data : List Nat) : FixedArray :=
  { buf := data.flatMap (leBytes w), length := data.length }

/-- `arr[offset : offset + length]` (`chunk.py:276-279`): Arrow keeps the buffers. -/
def FixedArray.slice (arr : FixedArray) (offset length : Nat) : FixedArray :=
  { buf := arr.buf
    offset := arr.offset + min offset arr.length
    length := min length (arr.length - offset)
    valid := arr.valid.map fun v => (v.drop offset).take length }

end Rxls
