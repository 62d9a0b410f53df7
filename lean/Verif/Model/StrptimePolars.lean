import Verif.Model.StrptimeLib

/-!
# The library `strptime` behind `_strptime` with polars (`rxls/chunk/casts.py:606-635`)

`pl.from_arrow(arr).str.strptime(pl.Datetime("ms"), format, strict=False)`: polars first tries a parser of its own, for
formats of fixed width; when that fails, or the format has another conversion, the text goes to chrono's
`NaiveDateTime::parse_from_str`.  A text neither accepts becomes null.  Not code of this project: part of the trusted
base, used to instantiate `sp` in `Model/Strptime`.  Simplifications: only the conversions that occur in the default
formats (`%Y %y %m %d %H %M %S %T %R %I %p %r %.f`), no signs before a year, and the blanks that are skipped are those of
ASCII; a format with any other conversion matches nothing.
-/

namespace Rxls

/-- chrono's `Parsed`: the fields given so far.  No default format gives a field twice.
(library behaviour used at `rxls/chunk/casts.py:629-633`.) -/
structure Cm where
  year : Option Nat := none
  yearMod : Option Nat := none
  month : Option Nat := none
  day : Option Nat := none
  hour : Option Nat := none
  hour12 : Option Nat := none
  pm : Option Bool := none
  minute : Option Nat := none
  second : Option Nat := none
  nano : Option Nat := none
  deriving DecidableEq, Repr

/-- A conversion, or a character of the format.  (library behaviour used at `rxls/chunk/casts.py:629-633`.) -/
inductive CDir where
  | year4 | year2 | month | day | hour | hour12 | minute | second | ampm | frac
  | lit (c : Char)
  | space
  deriving DecidableEq, Repr

/-- chrono's number: blanks are skipped, up to `n` digits are taken, then the range is checked.
(library behaviour used at `rxls/chunk/casts.py:629-633`.) -/
def chronoNumber (lo hi n : Nat) (s : Str) : Option (Nat × Str) :=
  match getNumber 0 (10 ^ n - 1) n s with
  | none => none
  | some p => if lo ≤ p.1 ∧ p.1 ≤ hi then some p else none

/-- `%p`: two letters in any case.  (library behaviour used at `rxls/chunk/casts.py:629-633`.) -/
def chronoAmPm : Str → Option (Bool × Str)
  | a :: m :: s =>
    if m = 'm' ∨ m = 'M' then
      if a = 'a' ∨ a = 'A' then some (false, s) else if a = 'p' ∨ a = 'P' then some (true, s) else none
    else none
  | _ => none

/-- `%.f`: a point and digits, or nothing; nine digits count, further ones are skipped.
(library behaviour used at `rxls/chunk/casts.py:629-633`.) -/
def chronoFrac : Str → Option (Option Nat × Str)
  | '.' :: s =>
    let ds := s.takeWhile Char.isDigit
    if ds.isEmpty then none
    else some (some (((ds ++ List.replicate 9 '0').take 9).foldl (fun v c => v * 10 + decVal c) 0), s.dropWhile Char.isDigit)
  | s => some (none, s)

/-- One step of chrono's `parse`.  (library behaviour used at `rxls/chunk/casts.py:629-633`.) -/
def CDir.run : CDir → Str → Cm → Option (Str × Cm)
  | .year4, s, t => (chronoNumber 0 9999 4 s).map fun p => (p.2, { t with year := some p.1 })
  | .year2, s, t => (chronoNumber 0 99 2 s).map fun p => (p.2, { t with yearMod := some p.1 })
  | .month, s, t => (chronoNumber 1 12 2 s).map fun p => (p.2, { t with month := some p.1 })
  | .day, s, t => (chronoNumber 1 31 2 s).map fun p => (p.2, { t with day := some p.1 })
  | .hour, s, t => (chronoNumber 0 23 2 s).map fun p => (p.2, { t with hour := some p.1 })
  | .hour12, s, t => (chronoNumber 1 12 2 s).map fun p => (p.2, { t with hour12 := some p.1 })
  | .minute, s, t => (chronoNumber 0 59 2 s).map fun p => (p.2, { t with minute := some p.1 })
  | .second, s, t => (chronoNumber 0 60 2 s).map fun p => (p.2, { t with second := some p.1 })
  | .ampm, s, t => (chronoAmPm s).map fun p => (p.2, { t with pm := some p.1 })
  | .frac, s, t => (chronoFrac s).map fun p => (p.2, { t with nano := p.1 })
  | .lit c, x :: s, t => if x = c then some (s, t) else none
  | .lit _, [], _ => none
  | .space, s, t => some (s.dropWhile cSpace, t)

/-- The format from left to right.  (library behaviour used at `rxls/chunk/casts.py:629-633`.) -/
def runC : List CDir → Str → Cm → Option (Str × Cm)
  | [], s, t => some (s, t)
  | d :: ds, s, t =>
    match d.run s t with
    | none => none
    | some (s, t) => runC ds s t

/-- The format as conversions; `%T` is `%H:%M:%S`, `%R` is `%H:%M`, `%r` is `%I:%M:%S %p`.
(library behaviour used at `rxls/chunk/casts.py:629-633`.) -/
def fmtCDirs : Str → Option (List CDir)
  | [] => some []
  | '%' :: 'Y' :: f => (fmtCDirs f).map (.year4 :: ·)
  | '%' :: 'y' :: f => (fmtCDirs f).map (.year2 :: ·)
  | '%' :: 'm' :: f => (fmtCDirs f).map (.month :: ·)
  | '%' :: 'd' :: f => (fmtCDirs f).map (.day :: ·)
  | '%' :: 'H' :: f => (fmtCDirs f).map (.hour :: ·)
  | '%' :: 'I' :: f => (fmtCDirs f).map (.hour12 :: ·)
  | '%' :: 'M' :: f => (fmtCDirs f).map (.minute :: ·)
  | '%' :: 'S' :: f => (fmtCDirs f).map (.second :: ·)
  | '%' :: 'p' :: f => (fmtCDirs f).map (.ampm :: ·)
  | '%' :: '.' :: 'f' :: f => (fmtCDirs f).map (.frac :: ·)
  | '%' :: 'T' :: f => (fmtCDirs f).map ([.hour, .lit ':', .minute, .lit ':', .second] ++ ·)
  | '%' :: 'R' :: f => (fmtCDirs f).map ([.hour, .lit ':', .minute] ++ ·)
  | '%' :: 'r' :: f =>
    (fmtCDirs f).map ([.hour12, .lit ':', .minute, .lit ':', .second, .space, .ampm] ++ ·)
  | '%' :: _ => none
  | c :: f => (fmtCDirs f).map ((if cSpace c then .space else .lit c) :: ·)

/-- Length of a month.  (library behaviour used at `rxls/chunk/casts.py:629-633`.) -/
def civilMonth (y m : Nat) : Nat :=
  if m = 2 then (if (y % 4 = 0 ∧ y % 100 ≠ 0) ∨ y % 400 = 0 then 29 else 28)
  else if m = 4 ∨ m = 6 ∨ m = 9 ∨ m = 11 then 30 else 31

/-- `NaiveDate::from_ymd_opt(y, m, d)`, as days from 1970-01-01.
(library behaviour used at `rxls/chunk/casts.py:629-633`.) -/
def civilDate (y m d : Nat) : Option Int :=
  if 1 ≤ m ∧ m ≤ 12 ∧ 1 ≤ d ∧ d ≤ civilMonth y m then some (daysFromCivil y m d) else none

/-- `Parsed::to_naive_date`, for the fields of the default formats; two digits are a year from 1970 to 2069.
(library behaviour used at `rxls/chunk/casts.py:629-633`.) -/
def Cm.date (t : Cm) : Option Int :=
  match t.year, t.yearMod, t.month, t.day with
  | some y, _, some m, some d => civilDate y m d
  | none, some y, some m, some d => civilDate (if y < 70 then 2000 + y else 1900 + y) m d
  | _, _, _, _ => none

/-- The hour, given whole or as half day and hour.  (library behaviour used at `rxls/chunk/casts.py:629-633`.) -/
def Cm.fullHour (t : Cm) : Option Nat :=
  match t.hour, t.hour12, t.pm with
  | some h, _, _ => some h
  | none, some h, some p => some (h % 12 + if p then 12 else 0)
  | _, _, _ => none

/-- `Parsed::to_naive_time` in milliseconds: hour and minute are needed, the seconds are not.
(library behaviour used at `rxls/chunk/casts.py:629-633`.) -/
def Cm.time (t : Cm) : Option Nat :=
  match t.fullHour, t.minute with
  | some h, some m => some ((h * 3600 + m * 60 + t.second.getD 0) * 1000 + t.nano.getD 0 / 1000000)
  | _, _ => none

/-- `NaiveDateTime::parse_from_str`: date and time are both needed.
(library behaviour used at `rxls/chunk/casts.py:629-633`.) -/
def Cm.chrono (t : Cm) : Option Int :=
  match t.date, t.time with
  | some d, some c => some (d * 86400000 + (c : Int))
  | _, _ => none

/-- The format has a fixed width (`fmt_len` in `polars-time`), and the text has it, with a digit where a digit is due.
(library behaviour used at `rxls/chunk/casts.py:629-633`.) -/
def fixedMatch : List CDir → Str → Bool
  | [], s => s.isEmpty
  | .year4 :: ds, a :: b :: c :: d :: s => a.isDigit && b.isDigit && c.isDigit && d.isDigit && fixedMatch ds s
  | .year2 :: ds, a :: b :: s => a.isDigit && b.isDigit && fixedMatch ds s
  | .month :: ds, a :: b :: s => a.isDigit && b.isDigit && fixedMatch ds s
  | .day :: ds, a :: b :: s => a.isDigit && b.isDigit && fixedMatch ds s
  | .hour :: ds, a :: b :: s => a.isDigit && b.isDigit && fixedMatch ds s
  | .minute :: ds, a :: b :: s => a.isDigit && b.isDigit && fixedMatch ds s
  | .second :: ds, a :: b :: s => a.isDigit && b.isDigit && fixedMatch ds s
  | .lit c :: ds, a :: s => a == c && fixedMatch ds s
  | .space :: ds, a :: s => a == ' ' && fixedMatch ds s
  | _, _ => false

/-- The parser of polars (`StrpTimeState::parse`): missing fields are those of 0001-01-01 00:00; two digits are a year
from 1950 to 2049; a second 60 is refused. -/
def Cm.fast (t : Cm) : Option Int :=
  let y := match t.year, t.yearMod with
    | some y, _ => y
    | none, some y => if y < 50 then 2000 + y else 1900 + y
    | none, none => 1
  match civilDate y (t.month.getD 1) (t.day.getD 1) with
  | some d =>
    if t.second.getD 0 < 60 then
      some (d * 86400000 + ((t.hour.getD 0 * 3600 + t.minute.getD 0 * 60 + t.second.getD 0 : Nat) : Int) * 1000)
    else none
  | none => none

/-- `strptime` of polars for one format and one text, `none` for null.
(library behaviour used at `rxls/chunk/casts.py:629-633`.) -/
def polarsStrptime (fmt : Str) (s : Option Str) : Option Int :=
  match fmtCDirs fmt, s with
  | some ds, some s =>
    match runC ds s {} with
    | some ([], t) => (if fixedMatch ds s then t.fast else none).or t.chrono
    | _ => none
  | _, _ => none

end Rxls
