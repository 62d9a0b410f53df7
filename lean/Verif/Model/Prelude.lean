/-!
# Prelude: Python values and exceptions

Shared vocabulary of the model.  Python exceptions are values (`Except PyErr`).
-/

namespace Rxls

/-- Python `bytes`.  (`rxls/biff.py:51`.) -/
abbrev Bytes := List UInt8

/-- Python exception classes that the modelled code raises, catches or lets escape.
(`rxls/reader/xlsx.py:426-437` and `rxls/chunk/chunk.py:118,326,488`.) -/
inductive PyErr where
  | structError          -- struct.error
  | indexError           -- IndexError
  | keyError             -- KeyError
  | valueError           -- ValueError
  | typeError            -- TypeError
  | runtimeError         -- RuntimeError
  | stopIteration        -- StopIteration
  | assertionError       -- AssertionError
  | unicodeDecodeError   -- UnicodeDecodeError
  | attributeError       -- AttributeError
  | arrowInvalid         -- pyarrow.ArrowInvalid
  | arrowNotImplemented  -- pyarrow.ArrowNotImplementedError
  | overflowError        -- OverflowError
  | undefinedBehaviour   -- not an exception: memory outside a buffer is read
  deriving DecidableEq, Repr

/-- A Python computation that returns a value or raises.  (`rxls/reader/common.py:98-339`.) -/
abbrev Py (α : Type) := Except PyErr α

/-- `struct.Struct("<B").pack(i)`: one unsigned byte, `struct.error` out of range.
Models `rxls/biff.py:18-26` and `rxls/core.py:198-200` (`u1_p`); arguments are non-negative here. -/
def packB (i : Nat) : Py UInt8 :=
  if i < 256 then .ok (UInt8.ofNat i) else .error .structError

/-- `struct.Struct("<BB..B").pack(*is)`: a sequence of unsigned bytes.
Models `b1_st_p` .. `b4_st_p`, `rxls/biff.py:22-26`. -/
def packBs : List Nat → Py Bytes
  | [] => .ok []
  | i :: is => do
    let b ← packB i
    let bs ← packBs is
    .ok (b :: bs)

/-- `struct.Struct("<H").pack(i)`; models `u2_p`, `rxls/core.py:193-195`. -/
def packH (i : Nat) : Py Bytes :=
  if i < 65536 then .ok [UInt8.ofNat (i % 256), UInt8.ofNat (i / 256)] else .error .structError

/-- `struct.Struct("<I").pack(i)`; models `u4_p`, `rxls/core.py:188-190`. -/
def packI (i : Nat) : Py Bytes :=
  if i < 4294967296 then
    .ok [UInt8.ofNat (i % 256), UInt8.ofNat (i / 256 % 256),
         UInt8.ofNat (i / 65536 % 256), UInt8.ofNat (i / 16777216)]
  else .error .structError

/-- `struct.Struct("<I").unpack(b)`; `struct.error` unless exactly 4 bytes are given.
Models `u4_u`, `rxls/core.py:183-185`. -/
def unpackI : Bytes → Py Nat
  | [a, b, c, d] =>
    .ok (a.toNat + 256 * b.toNat + 65536 * c.toNat + 16777216 * d.toNat)
  | _ => .error .structError

/-- Python slice `b[i:j]` with non-negative bounds.  (`rxls/reader/xlsb.py:134,252,257,261,279`.) -/
def pySlice {α : Type} (b : List α) (i j : Nat) : List α := (b.take j).drop i

/-- A Python `set[int] | None` filter argument.  (`rxls/biff.py:200,214`.) -/
abbrev OnlySet := Option (List Nat)

end Rxls
