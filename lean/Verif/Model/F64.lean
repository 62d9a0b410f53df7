import Mathlib.Data.Int.Log
import Mathlib.Data.Rat.Floor
import Mathlib.Algebra.Order.Field.Rat
import Verif.Model.Prelude

/-!
# IEEE-754 binary64 arithmetic

numpy's `float64` operations, used throughout `rxls/chunk/casts.py`, are the IEEE-754 operations
with round-to-nearest, ties to even.  A finite double is represented by the rational number it
denotes.  Simplification: `-0.0` and `0.0` are the same value (no code path modelled here can tell
them apart: they compare equal and convert to the same integers).  `Lemmas/F64.lean` proves that
`rndQ` is the nearest representable number, so nothing here has to be taken on trust beyond numpy
implementing IEEE-754.
-/

namespace Rxls

/-- A binary64 value: NaN, an infinity (`true` = negative), or a finite number.
(library behaviour used at `rxls/chunk/casts.py:40-180`.) -/
inductive F64 where
  | nan
  | inf (neg : Bool)
  | fin (q : ℚ)
  deriving DecidableEq, Repr

/-- Exponent of the unit in the last place of a number of the magnitude of `q`; `-1074` is the
exponent of the smallest subnormal.  (library behaviour used at `rxls/chunk/casts.py:56-180`.) -/
def ulpExp (q : ℚ) : ℤ := max (Int.log 2 |q| - 52) (-1074)

/-- Nearest integer, ties to even (`np.rint`).  (library behaviour used at `rxls/chunk/casts.py:142-144,180`.) -/
def rneInt (q : ℚ) : ℤ :=
  let f := ⌊q⌋
  if q - f < 1 / 2 then f
  else if 1 / 2 < q - f then f + 1
  else if f % 2 = 0 then f
  else f + 1

/-- Rounding to 53 significant bits (unbounded exponent upwards).
(library behaviour used at `rxls/chunk/casts.py:56-180`.) -/
def rndQ (q : ℚ) : ℚ := rneInt (q / (2 : ℚ) ^ ulpExp q) * (2 : ℚ) ^ ulpExp q

/-- Rounding to binary64, overflow to infinity.  (library behaviour used at `rxls/chunk/casts.py:56-180`.) -/
def rnd (q : ℚ) : F64 :=
  if |rndQ q| < 2 ^ 1024 then .fin (rndQ q) else .inf (decide (q < 0))

namespace F64

/-- `a + b`.  (library behaviour used at `rxls/chunk/casts.py:145-147`.) -/
def add : F64 → F64 → F64
  | nan, _ => nan
  | _, nan => nan
  | inf s, inf t => if s = t then inf s else nan
  | inf s, fin _ => inf s
  | fin _, inf t => inf t
  | fin a, fin b => rnd (a + b)

/-- `-a`.  (library behaviour used at `rxls/chunk/casts.py:56-180`.) -/
def neg : F64 → F64
  | nan => nan
  | inf s => inf (!s)
  | fin a => fin (-a)

/-- `a - b`.  (library behaviour used at `rxls/chunk/casts.py:95-98`.) -/
def sub (a b : F64) : F64 := add a (neg b)

/-- `a * b`.  (library behaviour used at `rxls/chunk/casts.py:101,147`.) -/
def mul : F64 → F64 → F64
  | nan, _ => nan
  | _, nan => nan
  | inf s, inf t => inf (s != t)
  | inf s, fin b => if b = 0 then nan else inf (s != decide (b < 0))
  | fin a, inf t => if a = 0 then nan else inf (t != decide (a < 0))
  | fin a, fin b => rnd (a * b)

/-- `a / b` for a finite non-zero divisor, the only kind the modelled code uses (a zero divisor
gives `nan` here).  (library behaviour used at `rxls/chunk/casts.py:66,137`.) -/
def div : F64 → F64 → F64
  | nan, _ => nan
  | _, nan => nan
  | inf _, inf _ => nan
  | inf s, fin b => if b = 0 then nan else inf (s != decide (b < 0))
  | fin _, inf _ => fin 0
  | fin a, fin b => if b = 0 then nan else rnd (a / b)

/-- `a < b`; false if either is NaN.  (library behaviour used at `rxls/chunk/casts.py:98`.) -/
def blt : F64 → F64 → Bool
  | nan, _ => false
  | _, nan => false
  | inf s, inf t => s && !t
  | inf s, fin _ => s
  | fin _, inf t => !t
  | fin a, fin b => decide (a < b)

/-- `a == b`; NaN is not equal to itself.  (library behaviour used at `rxls/chunk/casts.py:142-144`.) -/
def beq : F64 → F64 → Bool
  | nan, _ => false
  | _, nan => false
  | inf s, inf t => s == t
  | fin a, fin b => decide (a = b)
  | _, _ => false

/-- `a >= b`.  (library behaviour used at `rxls/chunk/casts.py:97`.) -/
def bge (a b : F64) : Bool := blt b a || beq a b

/-- Truncation towards zero of a rational.  (library behaviour used at `rxls/chunk/casts.py:102,144,180`.) -/
def truncQ (q : ℚ) : ℤ := if 0 ≤ q then ⌊q⌋ else ⌈q⌉

/-- `np.trunc`.  (library behaviour used at `rxls/chunk/casts.py:144,180`.) -/
def trunc : F64 → F64
  | fin q => fin (truncQ q)
  | x => x

/-- `np.rint`.  (library behaviour used at `rxls/chunk/casts.py:142-144,180`.) -/
def rint : F64 → F64
  | fin q => fin (rneInt q)
  | x => x

/-- `x.astype(np.int64)`: truncation; NaN, infinities and out-of-range values give the "integer
indefinite" value of x86-64 (`cvttsd2si`).  C leaves these cases undefined.
(library behaviour used at `rxls/chunk/casts.py:102`.) -/
def toI64 : F64 → Int
  | fin q => if -(2 ^ 63) ≤ truncQ q ∧ truncQ q < 2 ^ 63 then truncQ q else -(2 ^ 63)
  | _ => -(2 ^ 63)

/-- `x.astype(np.int32)`: as above with the 32-bit instruction.
(library behaviour used at `rxls/chunk/casts.py:145-147`.) -/
def toI32 : F64 → Int
  | fin q => if -(2 ^ 31) ≤ truncQ q ∧ truncQ q < 2 ^ 31 then truncQ q else -(2 ^ 31)
  | _ => -(2 ^ 31)

/-- Value of a 64-bit pattern (`.view(np.float64)`).  (library behaviour used at `rxls/chunk/casts.py:64`.) -/
def ofBits (b : Nat) : F64 :=
  let neg : Bool := decide (b / 2 ^ 63 % 2 = 1)
  let e : Nat := b / 2 ^ 52 % 2 ^ 11
  let m : Nat := b % 2 ^ 52
  if e = 2047 then (if m = 0 then inf neg else nan)
  else
    let a : ℚ := if e = 0 then m * (2 : ℚ) ^ (-1074 : ℤ)
      else ((2 ^ 52 + m : Nat) : ℚ) * (2 : ℚ) ^ ((e : ℤ) - 1075)
    fin (if neg then -a else a)

/-- Bit pattern of a value (`.view(np.uint64)`); NaN is the quiet NaN, zero is `+0.0`.
(library behaviour used at `rxls/chunk/casts.py:152`.) -/
def toBits : F64 → Nat
  | nan => 0x7FF8000000000000
  | inf s => (if s then 2 ^ 63 else 0) + 0x7FF0000000000000
  | fin q =>
    let e := ulpExp q
    let m := (|q| / (2 : ℚ) ^ e).floor.toNat
    (if q < 0 then 2 ^ 63 else 0) +
      (if m < 2 ^ 52 then m else (e + 1075).toNat * 2 ^ 52 + (m - 2 ^ 52))

end F64

end Rxls
