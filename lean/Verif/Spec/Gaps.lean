import Verif.Spec.Biff
import Verif.Spec.Xlsx
import Verif.Model.ReadFile

/-! # Rows that a file may leave out -/

namespace Rxls

/-- The second list of records is the first one with row records added before other row records: rows without cells. -/
inductive Gaps : List Record → List Record → Prop
  | nil : Gaps [] []
  | keep (r : Record) {rs rs' : List Record} (h : Gaps rs rs') : Gaps (r :: rs) (r :: rs')
  | gap (a b : Bytes) {rs rs' : List Record} (h : Gaps (⟨0, a⟩ :: rs) rs') : Gaps (⟨0, a⟩ :: rs) (⟨0, b⟩ :: rs')

/-- The same part, or the same records with rows without cells added. -/
def FillsGaps (b b' : Bytes) : Prop :=
  b' = b ∨ ∃ rs rs' : List Record, writeAll rs [] = .ok b ∧ writeAll rs' [] = .ok b' ∧ Gaps rs rs'

/-- The rows of a sheet with a row of no cells for every number that is left out; `next` is the first number. -/
def fillRows (next : Nat) : List (Nat × XRow) → List XRow
  | [] => []
  | (n, r) :: rest => List.replicate (n - next) ⟨[], []⟩ ++ r :: fillRows (n + 1) rest

end Rxls
