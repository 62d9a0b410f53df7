import Verif.Model.F64

/-!
# `rxls/chunk/casts.py`: numeric conversions

Every function below is applied by numpy to each element of an array; the array versions are
`List.map`.  The numba variants (`casts.py:219-423`) repeat the same expressions, except for
`__gu_f8_to_rk` (`guF8ToRk` below), and are not modelled separately.  `fastmath` (allowed to reorder float operations in some numba variants) is not
modelled.
-/

namespace Rxls

/-- `float64` constant or integer conversion `.astype(np.float64)`; exact for `|n| ≤ 2^53`, otherwise
rounded, as in IEEE-754.  (`rxls/chunk/casts.py:56,63`.) -/
def F64.ofInt (n : Int) : F64 := rnd n

/-- A numpy boolean used as a number (`True` is `1.0`).  (`rxls/chunk/casts.py:97-98`.) -/
def F64.ofBool (b : Bool) : F64 := .fin (if b then 1 else 0)

/-- `rk_to_f8` on one element (`rxls/chunk/casts.py:40-67`).  `uint32`, `int32` and `uint64` words are
bit vectors. -/
def rkToF8 (w : BitVec 32) : F64 :=
  let iFlag : BitVec 32 := w &&& 2#32
  let cFlag : BitVec 32 := (w &&& 1#32) * 99#32 + 1#32
  let arr : BitVec 32 := w &&& 0xFFFFFFFC#32
  F64.div
    (if iFlag ≠ 0#32 then F64.ofInt ((arr.sshiftRight 2).toInt)
     else F64.ofBits ((arr.setWidth 64) <<< (32 : Nat)).toNat)
    (F64.ofInt cFlag.toNat)

/-- `rk_to_f8` on an array.  (`rxls/chunk/casts.py:40-67`.) -/
def rkToF8Array (ws : List (BitVec 32)) : List F64 := ws.map rkToF8

/-- `f8_to_ms_win` on one element (`rxls/chunk/casts.py:70-102`). -/
def f8ToMsWin (x : F64) : Int :=
  F64.toI64
    (F64.mul
      (F64.sub x
        (F64.mul (F64.ofBool (F64.bge x (.fin 1)))
          (F64.sub (.fin 25569) (F64.ofBool (F64.blt x (.fin 60))))))
      (.fin 86400000))

/-- Reduction of an integer to `int64` (numpy integer arithmetic wraps).
(library behaviour used at `rxls/chunk/casts.py:131-137`.) -/
def wrap64 (n : Int) : Int := (BitVec.ofInt 64 n).toInt

/-- `ms_to_f8_win` on one element (`rxls/chunk/casts.py:105-137`).  `/` on two `int64` arrays converts
both to `float64` and divides. -/
def msToF8Win (n : Int) : F64 :=
  let d : Int := 86400000
  let off : Int := (if d ≤ n then 1 else 0) *
    (2209075200000 + (if (-2203891200000 : Int) ≤ n then 1 else 0) * d)
  F64.div (F64.ofInt (wrap64 (n + off))) (F64.ofInt d)

/-- `np.round(x, p)` for `p ≥ 0` digits: numpy multiplies by `10^p`, applies `rint` and divides
(`numpy/core/src/multiarray/calculation.c`, `PyArray_Round`).  `10^p` is exact for `p ≤ 22`.
(library behaviour used at `rxls/chunk/casts.py:142-144,180`.) -/
def npRound (x : F64) (p : Nat) : F64 :=
  F64.div (F64.rint (F64.mul x (.fin (10 ^ p)))) (.fin (10 ^ p))

/-- `f8_to_rk` on one element (`rxls/chunk/casts.py:140-154`).  `0.001` is the double nearest to
1/1000. -/
def f8ToRk (x : F64) : BitVec 32 :=
  if F64.beq x (npRound x 2) then
    if F64.beq (F64.trunc x) (npRound x 2) then
      (BitVec.ofInt 32 (F64.toI32 (F64.add x (rnd (1 / 1000)))) <<< (2 : Nat)) ||| 2#32
    else
      (BitVec.ofInt 32 (F64.toI32 (F64.add (F64.mul x (.fin 100)) (rnd (1 / 1000)))) <<< (2 : Nat))
        ||| 3#32
  else ((BitVec.ofNat 64 (F64.toBits x) >>> (32 : Nat)).setWidth 32) &&& 0xFFFFFFFC#32

/-- `__gu_f8_to_rk` on one element (`rxls/chunk/casts.py:258-276`), which replaces `f8_to_rk` when numba
and TBB are installed: whole numbers go through `int64` first, and `astype(np.int32)` of an `int64`
keeps the low 32 bits. -/
def guF8ToRk (x : F64) : BitVec 32 :=
  if F64.beq x (npRound x 2) then
    if F64.beq (F64.trunc x) (npRound x 2) then
      (BitVec.ofInt 32 (F64.toI64 (F64.add x (rnd (1 / 1000)))) <<< (2 : Nat)) ||| 2#32
    else
      (BitVec.ofInt 32 (F64.toI32 (F64.add (F64.mul x (.fin 100)) (rnd (1 / 1000)))) <<< (2 : Nat))
        ||| 3#32
  else ((BitVec.ofNat 64 (F64.toBits x) >>> (32 : Nat)).setWidth 32) &&& 0xFFFFFFFC#32

/-- `i8_to_rk` on one element (`rxls/chunk/casts.py:157-160`); `astype(np.int32)` keeps the low 32
bits. -/
def i8ToRk (n : Int) : BitVec 32 := (BitVec.ofInt 32 n <<< (2 : Nat)) ||| 2#32

/-- `f8_is_i8` (`rxls/chunk/casts.py:163-180`). -/
def f8IsI8 (arr : List F64) (p : Nat) : Bool :=
  !(arr.any fun x => !(F64.beq (F64.trunc x) (npRound x p)))

/-- `np.any(x)` on one element of `x % y` for a positive divisor `y`: whether the float remainder is not
zero.  The remainder of two doubles is exact up to the final addition of `y`, which cannot make it
zero.  (library behaviour used at `rxls/chunk/casts.py:198`.) -/
def F64.remNonzero : F64 → ℚ → Bool
  | .fin q, y => decide (q / y ≠ ((⌊q / y⌋ : ℤ) : ℚ))
  | _, _ => true

/-- `dt_has_t` (`rxls/chunk/casts.py:183-198`).  An `int64` array and an `np.uint64` scalar have no
common integer type, so numpy computes in `float64`. -/
def dtHasT (arr : List Int) : Bool := arr.any fun n => F64.remNonzero (F64.ofInt n) 86400000

/-- `dt_has_d` (`rxls/chunk/casts.py:201-216`).  As above; a comparison that is done on integers has the
same result for `|n| ≤ 2^53`, and above that too, the bound being small. -/
def dtHasD (arr : List Int) : Bool := arr.any fun n => F64.blt (.fin 86400000) (F64.ofInt n)

/-- `_unsafe_bool_arrow_to_numpy` (`rxls/chunk/casts.py:552-573`): `np.unpackbits` lists the bits of
each byte from the most significant one, then the last `len(arr)` entries are reversed
(`x[-n:]`, where `x[-0:]` is all of `x`).  Simplification: the Arrow array has offset 0 and its buffer
is exactly the bytes given. -/
def unpackbits (bs : Bytes) : List Bool :=
  bs.flatMap fun b => (List.range 8).map fun i => b.toNat.testBit (7 - i)

/-- `_unsafe_bool_arrow_to_numpy`, the bits of the buffer and the length of the array being given (`rxls/chunk/casts.py:552-573`). -/
def unsafeBoolArrowToNumpy (buf : Bytes) (n : Nat) : List Bool :=
  (if n = 0 then unpackbits buf else (unpackbits buf).drop ((unpackbits buf).length - n)).reverse

end Rxls
