import Verif.Spec.Calendar
import Verif.Model.Prelude

/-! # Dates and times as people write them -/

namespace Rxls

/-- A decimal digit. -/
def digitChar (n : Nat) : Char := Char.ofNat (48 + n % 10)

def digits2 (n : Nat) : List Char := [digitChar (n / 10), digitChar n]
def digits4 (n : Nat) : List Char := [digitChar (n / 1000), digitChar (n / 100), digitChar (n / 10), digitChar n]

/-- `2024-02-01`, `01/02/2024`, `01.02.2024`, `01-02-2024`. -/
inductive DateStyle where
  | iso | slash | dot | dash
  deriving DecidableEq, Repr

def DateStyle.sep : DateStyle → Char
  | .iso => '-'
  | .slash => '/'
  | .dot => '.'
  | .dash => '-'

def DateStyle.write : DateStyle → Date → List Char
  | .iso, d => digits4 d.year ++ '-' :: digits2 d.month ++ '-' :: digits2 d.day
  | st, d => digits2 d.day ++ st.sep :: digits2 d.month ++ st.sep :: digits4 d.year

/-- With the last two digits of the year only; not for `iso`. -/
def DateStyle.write2 (st : DateStyle) (d : Date) : List Char :=
  digits2 d.day ++ st.sep :: digits2 d.month ++ st.sep :: digits2 (d.year % 100)

/-- A time of day in seconds. -/
structure Clock where
  hour : Nat
  minute : Nat
  second : Nat
  deriving DecidableEq, Repr

def Clock.Real (c : Clock) : Prop := c.hour < 24 ∧ c.minute < 60 ∧ c.second < 60

def Clock.millis (c : Clock) : Nat := (c.hour * 3600 + c.minute * 60 + c.second) * 1000

/-- `10:20:30`, or `10:20` when the seconds are zero. -/
def Clock.write (seconds : Bool) (c : Clock) : List Char :=
  if seconds then digits2 c.hour ++ ':' :: digits2 c.minute ++ ':' :: digits2 c.second
  else digits2 c.hour ++ ':' :: digits2 c.minute

/-- What is written after a date: nothing, or a space or `T` and the time. -/
inductive TimeStyle where
  | nothing
  | after (sep : Char) (seconds : Bool)
  deriving DecidableEq, Repr

/-- The style can write the time. -/
def TimeStyle.Fits : TimeStyle → Clock → Prop
  | .nothing, c => c = ⟨0, 0, 0⟩
  | .after sep seconds, c => (sep = ' ' ∨ sep = 'T') ∧ (seconds = false → c.second = 0)

def TimeStyle.write : TimeStyle → Clock → List Char
  | .nothing, _ => []
  | .after sep seconds, c => sep :: c.write seconds

/-- The text writes the moment `ms` (milliseconds from 1970-01-01; a time alone counts from midnight).  Two digits of a
year stand for 1969 to 2068, as in POSIX. -/
inductive WritesMoment : List Char → Int → Prop where
  | full (st : DateStyle) (ts : TimeStyle) (d : Date) (c : Clock) (k : Int) : d.Real → d.year < 10000 →
      DaysFromEpoch d k → c.Real → ts.Fits c → WritesMoment (st.write d ++ ts.write c) (k * 86400000 + c.millis)
  | short (st : DateStyle) (ts : TimeStyle) (d : Date) (c : Clock) (k : Int) : st ≠ .iso → d.Real → 1969 ≤ d.year →
      d.year < 2069 → DaysFromEpoch d k → c.Real → ts.Fits c →
      WritesMoment (st.write2 d ++ ts.write c) (k * 86400000 + c.millis)
  | clock (b : Bool) (c : Clock) : c.Real → (b = false → c.second = 0) → WritesMoment (c.write b) c.millis

/-- Three digits. -/
def digits3 (n : Nat) : List Char := [digitChar (n / 100), digitChar (n / 10), digitChar n]

/-- `2024-02-01 10:20:30.125`. -/
def momentText (d : Date) (c : Clock) (ms : Nat) : List Char :=
  DateStyle.iso.write d ++ ' ' :: c.write true ++ '.' :: digits3 ms

/-- The moment `v` (milliseconds from 1970-01-01) is `ms` thousandths of a second after the time `c` of the date `d`. -/
def IsMoment (v : Int) (d : Date) (c : Clock) (ms : Nat) : Prop :=
  d.Real ∧ c.Real ∧ ms < 1000 ∧ ∃ k, DaysFromEpoch d k ∧ v = k * 86400000 + c.millis + ms

end Rxls
