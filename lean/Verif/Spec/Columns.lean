import Verif.Model.Prelude

/-! # Spreadsheet column names -/

namespace Rxls

/-- Name of column `n` (0-based): `A`, .., `Z`, `AA`, `AB`, .. -/
def colName (n : Nat) : Bytes :=
  if n < 26 then [UInt8.ofNat (65 + n)]
  else colName (n / 26 - 1) ++ [UInt8.ofNat (65 + n % 26)]
termination_by n
decreasing_by omega

/-- ASCII digits. -/
def IsDigits (b : Bytes) : Prop := ∀ x ∈ b, 48 ≤ x.toNat ∧ x.toNat ≤ 57

end Rxls
