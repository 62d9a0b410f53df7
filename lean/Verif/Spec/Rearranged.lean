import Verif.Spec.TakeRows

/-! # Sheets with columns in another order -/

namespace Rxls

/-- Column `k` of the first sheet is column `σ k` of the second one. -/
structure Rearranged (σ : Equiv.Perm Int) (g g' : VGrid) : Prop where
  rows : g'.length = g.length
  cell : ∀ k r, g'.at (σ k) r = g.at k r

/-- The tables have the same columns, with their names, in some order; or both reads raise something. -/
def SameColumns {A : Type} : Py (Table A) → Py (Table A) → Prop
  | .ok T, .ok T' => T.names.length = T.arrays.length ∧ T'.names.length = T'.arrays.length ∧
      (T.names.zip T.arrays).Perm (T'.names.zip T'.arrays)
  | .error _, .error _ => True
  | _, _ => False

/-- Arguments that do not go by the position of a column. -/
structure ReadArgs.ByName {D : Type} (args : ReadArgs D) : Prop where
  header : args.header = .rows 1
  lookup : args.lookup = .none
  filters : ∀ l, args.filters ≠ .positions l
  strategy : args.strategy = .and ∨ args.strategy = .or
  dtypes : ∀ l, args.dtypes ≠ .sequence l

end Rxls
