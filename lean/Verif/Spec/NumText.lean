import Mathlib.Data.Rat.Defs
import Mathlib.Algebra.Order.Field.Rat
import Mathlib.Data.Fintype.Fin

/-! # Decimal numbers as XML Schema writes them (`xsd:double`, 3.2.5.1), the type of the value of a numeric cell -/

namespace Rxls

/-- A decimal number: sign, digits before and after the point, exponent with its letter and sign. -/
structure Decimal where
  /-- `+`, `-` or nothing -/
  sign : Option Bool := none
  whole : List (Fin 10)
  /-- the point is written -/
  point : Bool := false
  frac : List (Fin 10) := []
  /-- upper case E; sign; digits -/
  exp : Option (Bool × Option Bool × List (Fin 10)) := none

/-- There is a digit; digits after the point need one; the exponent has a digit. -/
structure Decimal.Ok (d : Decimal) : Prop where
  digit : d.whole ≠ [] ∨ d.frac ≠ []
  point : d.point = false → d.frac = []
  exp : ∀ e, d.exp = some e → e.2.2 ≠ []

/-- The sign character: `true` is minus. -/
def signText : Option Bool → List Char
  | none => []
  | some true => ['-']
  | some false => ['+']

/-- Digits as characters. -/
def numeral (n : Fin 10) : Char := Char.ofNat (48 + n.val)

/-- The text. -/
def Decimal.text (d : Decimal) : List Char :=
  signText d.sign ++ d.whole.map numeral ++ (if d.point then ['.'] else []) ++ d.frac.map numeral ++
    match d.exp with
    | none => []
    | some (upper, sign, ds) => (if upper then 'E' else 'e') :: (signText sign ++ ds.map numeral)

/-- The value of digits before the point: each counts the power of ten of its place. -/
def wholeValue : List (Fin 10) → Nat
  | [] => 0
  | d :: ds => d.val * 10 ^ ds.length + wholeValue ds

/-- The value of digits after the point. -/
def fracValue : List (Fin 10) → ℚ
  | [] => 0
  | d :: ds => (d.val + fracValue ds) / 10

/-- A number with its sign. -/
def signed (s : Option Bool) (q : ℚ) : ℚ := if s = some true then -q else q

/-- The exponent. -/
def expValue : Option (Bool × Option Bool × List (Fin 10)) → ℤ
  | none => 0
  | some (_, sign, ds) => if sign = some true then -(wholeValue ds : ℤ) else wholeValue ds

/-- The value. -/
def Decimal.value (d : Decimal) : ℚ :=
  signed d.sign ((wholeValue d.whole + fracValue d.frac) * (10 : ℚ) ^ expValue d.exp)

end Rxls
