import Verif.Model.F64
import Verif.Model.Xlsx

/-! # Python's `float(text)` and `int(text)`

`np.fromiter` (`casts.py:604`) makes numbers of the texts of XLSX cells with them (`chunk.py:112`, `chunk.py:135`), and
`int` is called on the numbers of built-in formats (`xlsx.py:239`, `xlsx.py:247`).  The rest of the model takes the two
functions as parameters (`Env.pyFloat`, `Env.pyInt`); here they are, after CPython's `Objects/floatobject.c`
(`PyFloat_FromString`), `Python/pystrtod.c` (`_Py_string_to_number_with_underscores`, `PyOS_string_to_double`) and
`Objects/longobject.c` (`PyLong_FromString`, base 10).  Simplifications: digits are ASCII digits (Python takes the
digits of every script); there is no negative zero; `int` gives non-negative numbers only. -/

namespace Rxls

/-- An ASCII digit.  (library behaviour used at `rxls/chunk/casts.py:604` (`rxls/chunk/chunk.py:112`).) -/
def isDigitChar (c : Char) : Bool := 48 ≤ c.toNat && c.toNat ≤ 57

/-- The number that digits write.  (library behaviour used at `rxls/chunk/casts.py:604` (`rxls/chunk/chunk.py:112`).) -/
def digitsNat (ds : Str) : Nat := ds.foldl (fun n c => 10 * n + (c.toNat - 48)) 0

/-- `_Py_string_to_number_with_underscores`: an underscore stands between two digits and is dropped.
(library behaviour used at `rxls/chunk/casts.py:604` (`rxls/chunk/chunk.py:112`).) -/
def dropUnderscores : Char → Str → Option Str
  | prev, [] => if prev = '_' then none else some []
  | prev, c :: rest =>
    if c = '_' then
      if isDigitChar prev then dropUnderscores c rest else none
    else if prev = '_' && !isDigitChar c then none
    else (dropUnderscores c rest).map (c :: ·)

/-- An optional sign.  (library behaviour used at `rxls/chunk/casts.py:604` (`rxls/chunk/chunk.py:112`).) -/
def readSign : Str → Bool × Str
  | '-' :: r => (true, r)
  | '+' :: r => (false, r)
  | r => (false, r)

/-- Lower case of the letters of `infinity` and `nan`.
(library behaviour used at `rxls/chunk/casts.py:604` (`rxls/chunk/chunk.py:112`).) -/
def lowerAscii (c : Char) : Char := if 65 ≤ c.toNat && c.toNat ≤ 90 then Char.ofNat (c.toNat + 32) else c

/-- The exponent, which must end the text: nothing, or `e`, a sign and digits.
(library behaviour used at `rxls/chunk/casts.py:604` (`rxls/chunk/chunk.py:112`).) -/
def readExponent : Str → Option Int
  | [] => some 0
  | c :: r =>
    if c = 'e' ∨ c = 'E' then
      let s := readSign r
      if s.2 ≠ [] ∧ s.2.all isDigitChar then some (if s.1 then -(digitsNat s.2 : Int) else digitsNat s.2) else none
    else none

/-- `PyOS_string_to_double` on a whole text (`_Py_parse_inf_or_nan`, `_Py_dg_strtod`): the decimal number, correctly
rounded.  (library behaviour used at `rxls/chunk/casts.py:604` (`rxls/chunk/chunk.py:112`).) -/
def strtod (u : Str) : Option F64 :=
  let s := readSign u
  let word := s.2.map lowerAscii
  if word = ['i', 'n', 'f'] ∨ word = ['i', 'n', 'f', 'i', 'n', 'i', 't', 'y'] then some (.inf s.1)
  else if word = ['n', 'a', 'n'] then some .nan
  else
    let whole := s.2.takeWhile isDigitChar
    let rest := s.2.dropWhile isDigitChar
    let dot := rest.head? = some '.'
    let frac := if dot then (rest.drop 1).takeWhile isDigitChar else []
    let tail := if dot then (rest.drop 1).dropWhile isDigitChar else rest
    if whole = [] ∧ frac = [] then none
    else
      match readExponent tail with
      | none => none
      | some e =>
        let q : ℚ := (digitsNat (whole ++ frac) : ℚ) * (10 : ℚ) ^ (e - frac.length)
        some (rnd (if s.1 then -q else q))

/-- `float(text)`; `none` is ValueError.
(library behaviour used at `rxls/chunk/casts.py:604` (`rxls/chunk/chunk.py:112`).) -/
def pyFloatText (s : Str) : Option F64 :=
  match dropUnderscores '\x00' (pyStrip s) with
  | none => none
  | some u => strtod u

/-- `int(text)` for a text without a minus sign; `none` is ValueError (or a negative number).
(library behaviour used at `rxls/chunk/casts.py:604` (`rxls/chunk/chunk.py:135` and `rxls/reader/xlsx.py:239,247`).) -/
def pyIntText (s : Str) : Option Nat :=
  match dropUnderscores '\x00' (pyStrip s) with
  | none => none
  | some u =>
    let r := if u.head? = some '+' then u.drop 1 else u
    if r ≠ [] ∧ r.all isDigitChar then some (digitsNat r) else none

end Rxls
