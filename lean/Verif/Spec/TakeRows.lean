import Verif.Spec.Values

/-! # Sheets with a full column -/

namespace Rxls

/-- The column has a value in every row. -/
def VGrid.FullColumn (g : VGrid) (k : Int) : Prop := ∀ row ∈ g, ∃ p ∈ row, p.1 = k

/-- The rows that `take_rows` leaves of a sheet: all without it, `take_rows + 1` with it. -/
def rowsTaken (n t : Nat) : Nat := if t = 0 then n else min n (t + 1)

/-- The rows the comments in the signature of `read` promise for a sheet of `n` rows (`common.py:112-115`): of those
after the header and the rows skipped after it, `take_rows`; rows are skipped after a header only. -/
def rowsPromised (n t : Nat) (header : HeaderArg) (skipAfter : Nat) : Nat :=
  let rest := match header with
    | .rows h => if 0 < h then n - h.toNat - skipAfter else n
    | .names _ => n
  if t = 0 then rest else min rest t

/-- All values of a column are texts. -/
def VGrid.TextColumn (g : VGrid) (k : Int) : Prop := ∀ row ∈ g, ∀ p ∈ row, p.1 = k → ∃ s, p.2 = .str s

end Rxls
