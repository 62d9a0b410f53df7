import Mathlib.Algebra.Order.Field.Rat
import Verif.Model.F64

/-! # Which rationals are binary64 numbers -/

namespace Rxls

/-- Representable with 53 bits, exponent not below the subnormal range, no upper limit. -/
def IsFloat (q : ℚ) : Prop :=
  ∃ m e : ℤ, |m| < 2 ^ 53 ∧ -1074 ≤ e ∧ q = m * (2 : ℚ) ^ e

/-- A finite binary64 number. -/
def IsF64 (q : ℚ) : Prop := IsFloat q ∧ |q| < 2 ^ 1024

end Rxls
