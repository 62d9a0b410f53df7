import Mathlib.Logic.Function.Iterate
import Mathlib.Data.Rat.Defs

/-! # The proleptic Gregorian calendar and Excel's 1900 date system -/

namespace Rxls

structure Date where
  year : Nat
  month : Nat
  day : Nat
  deriving DecidableEq, Repr

def leapYear (y : Nat) : Bool := (y % 4 == 0 && y % 100 != 0) || y % 400 == 0

def daysInMonth (y m : Nat) : Nat :=
  if m = 2 then (if leapYear y then 29 else 28)
  else if m = 4 ∨ m = 6 ∨ m = 9 ∨ m = 11 then 30
  else 31

/-- The day after. -/
def nextDay (d : Date) : Date :=
  if d.day < daysInMonth d.year d.month then { d with day := d.day + 1 }
  else if d.month < 12 then { year := d.year, month := d.month + 1, day := 1 }
  else { year := d.year + 1, month := 1, day := 1 }

def Date.Real (d : Date) : Prop :=
  1 ≤ d.month ∧ d.month ≤ 12 ∧ 1 ≤ d.day ∧ d.day ≤ daysInMonth d.year d.month

def epoch1970 : Date := ⟨1970, 1, 1⟩

/-- `d` is `k` days after 1970-01-01 (before it, if `k` is negative). -/
def DaysFromEpoch (d : Date) (k : Int) : Prop :=
  if 0 ≤ k then nextDay^[k.toNat] epoch1970 = d else nextDay^[(-k).toNat] d = epoch1970

/-- The date Excel shows for a whole serial number of the 1900 date system: serial 1 is 1900-01-01;
serial 60 is shown as 29 February 1900, a day that does not exist; serial 61 is 1900-03-01. -/
def excelDate (n : Nat) : Option Date :=
  if n = 0 ∨ n = 60 then none
  else if n < 60 then some (nextDay^[n - 1] ⟨1900, 1, 1⟩)
  else some (nextDay^[n - 61] ⟨1900, 3, 1⟩)

/-- Days between Excel's day zero and 1970-01-01, as a function of the serial. -/
def serialOffset (q : ℚ) : ℚ := if q < 1 then 0 else if q < 60 then 25568 else 25569

end Rxls
