import Verif.Model.Strptime

/-!
# The library `strptime` behind `_strptime` (`rxls/chunk/casts.py:643-660`)

`pyarrow.compute.strptime(arr, format, "ms", True)`: Arrow calls the C function `strptime` of the platform (glibc here),
requires that all of the text was consumed, and turns the fields into a timestamp; a text that does not match becomes
null.  Not code of this project: part of the trusted base, used to instantiate `sp` in `Model/Strptime`.
Simplifications: only the conversions that occur in the default formats (`%Y %y %m %d %H %M %S %T %R`); a format with
any other conversion matches nothing.
-/

namespace Rxls

/-- `struct tm`, with the full year; `day = 0` as in a zeroed structure.
(library behaviour used at `rxls/chunk/casts.py:659`.) -/
structure Tm where
  year : Nat := 1900
  month : Nat := 1
  day : Nat := 0
  hour : Nat := 0
  minute : Nat := 0
  second : Nat := 0
  deriving DecidableEq, Repr

/-- `isspace` in the C locale.  (library behaviour used at `rxls/chunk/casts.py:659`.) -/
def cSpace (c : Char) : Bool := c = ' ' || (9 ≤ c.toNat && c.toNat ≤ 13)

/-- Value of a decimal digit.  (library behaviour used at `rxls/chunk/casts.py:659`.) -/
def decVal (c : Char) : Nat := c.toNat - '0'.toNat

/-- The loop of `get_number` (glibc `time/strptime_l.c`) after the first digit: at most `n` further digits, and none
once the value times ten exceeds `hi`.  (library behaviour used at `rxls/chunk/casts.py:659`.) -/
def getDigits (hi : Nat) : Nat → Nat → Str → Nat × Str
  | 0, v, s => (v, s)
  | _ + 1, v, [] => (v, [])
  | n + 1, v, c :: s =>
    if c.isDigit = true ∧ v * 10 ≤ hi then getDigits hi n (v * 10 + decVal c) s else (v, c :: s)

/-- `get_number (from, to, n)`: leading spaces are skipped; value and rest of the text.
(library behaviour used at `rxls/chunk/casts.py:659`.) -/
def getNumber (lo hi n : Nat) (s : Str) : Option (Nat × Str) :=
  match s.dropWhile cSpace with
  | [] => none
  | c :: s =>
    if c.isDigit then
      let r := getDigits hi (n - 1) (decVal c) s
      if lo ≤ r.1 ∧ r.1 ≤ hi then some r else none
    else none

/-- A conversion, or a character of the format.  (library behaviour used at `rxls/chunk/casts.py:659`.) -/
inductive Dir where
  | year4 | year2 | month | day | hour | minute | second
  | lit (c : Char)
  | space
  deriving DecidableEq, Repr

/-- Limits and width of a number.  (library behaviour used at `rxls/chunk/casts.py:659`.) -/
def Dir.run : Dir → Str → Tm → Option (Str × Tm)
  | .year4, s, t => (getNumber 0 9999 4 s).map fun p => (p.2, { t with year := p.1 })
  | .year2, s, t => (getNumber 0 99 2 s).map fun p =>
      (p.2, { t with year := if 69 ≤ p.1 then 1900 + p.1 else 2000 + p.1 })
  | .month, s, t => (getNumber 1 12 2 s).map fun p => (p.2, { t with month := p.1 })
  | .day, s, t => (getNumber 1 31 2 s).map fun p => (p.2, { t with day := p.1 })
  | .hour, s, t => (getNumber 0 23 2 s).map fun p => (p.2, { t with hour := p.1 })
  | .minute, s, t => (getNumber 0 59 2 s).map fun p => (p.2, { t with minute := p.1 })
  | .second, s, t => (getNumber 0 61 2 s).map fun p => (p.2, { t with second := p.1 })
  | .lit c, x :: s, t => if x = c then some (s, t) else none
  | .lit _, [], _ => none
  | .space, s, t => some (s.dropWhile cSpace, t)

/-- The format from left to right.  (library behaviour used at `rxls/chunk/casts.py:659`.) -/
def runDirs : List Dir → Str → Tm → Option (Str × Tm)
  | [], s, t => some (s, t)
  | d :: ds, s, t =>
    match d.run s t with
    | none => none
    | some (s, t) => runDirs ds s t

/-- The format as conversions; `%T` is `%H:%M:%S`, `%R` is `%H:%M`.
(library behaviour used at `rxls/chunk/casts.py:659`.) -/
def fmtDirs : Str → Option (List Dir)
  | [] => some []
  | '%' :: 'Y' :: f => (fmtDirs f).map (.year4 :: ·)
  | '%' :: 'y' :: f => (fmtDirs f).map (.year2 :: ·)
  | '%' :: 'm' :: f => (fmtDirs f).map (.month :: ·)
  | '%' :: 'd' :: f => (fmtDirs f).map (.day :: ·)
  | '%' :: 'H' :: f => (fmtDirs f).map (.hour :: ·)
  | '%' :: 'M' :: f => (fmtDirs f).map (.minute :: ·)
  | '%' :: 'S' :: f => (fmtDirs f).map (.second :: ·)
  | '%' :: 'T' :: f => (fmtDirs f).map ([.hour, .lit ':', .minute, .lit ':', .second] ++ ·)
  | '%' :: 'R' :: f => (fmtDirs f).map ([.hour, .lit ':', .minute] ++ ·)
  | '%' :: _ => none
  | c :: f => (fmtDirs f).map ((if cSpace c then .space else .lit c) :: ·)

/-- Days from 1970-01-01 (`days_from_civil` of the date library in Arrow); months and days are not checked.
(library behaviour used at `rxls/chunk/casts.py:659`.) -/
def daysFromCivil (y m d : Nat) : Int :=
  let y' : Int := if m ≤ 2 then (y : Int) - 1 else y
  let era : Int := y' / 400
  let yoe : Int := y' - era * 400
  let mp : Int := if m ≤ 2 then (m : Int) + 9 else (m : Int) - 3
  let doy : Int := (153 * mp + 2) / 5 + d - 1
  era * 146097 + (yoe * 365 + yoe / 4 - yoe / 100 + doy) - 719468

/-- Timestamp of the fields (`ParseTimestampStrptime` in Arrow's `value_parsing.h`).
(library behaviour used at `rxls/chunk/casts.py:659`.) -/
def Tm.millis (t : Tm) : Int :=
  daysFromCivil t.year t.month (max t.day 1) * 86400000 + ((t.hour * 3600 + t.minute * 60 + t.second : Nat) : Int) * 1000

/-- `strptime` for one format and one text, `none` for null.  (library behaviour used at `rxls/chunk/casts.py:659`.) -/
def arrowStrptime (fmt : Str) (s : Option Str) : Option Int :=
  match fmtDirs fmt, s with
  | some ds, some s =>
    match runDirs ds s {} with
    | some ([], t) => some t.millis
    | _ => none
  | _, _ => none

end Rxls
