import Verif.Model.Read

/-! # Tables with other names -/

namespace Rxls

/-- The second outcome is the first one under the names `l`: the same arrays; ValueError if the number of names is not that
of the columns; some exception if the first one is an exception. -/
def Renames {A : Type} (l : List Str) (x y : Py (Table A)) : Prop :=
  match x with
  | .ok T => y = if l.length = T.names.length then .ok ⟨l, T.arrays⟩ else .error .valueError
  | .error _ => ∃ e, y = .error e

/-- No filter and no type goes by the name of a column. -/
structure ReadArgs.ByPosition {D : Type} (args : ReadArgs D) : Prop where
  pattern : ∀ p, args.filters ≠ .pattern p
  patterns : ∀ l, args.filters ≠ .patterns l
  dtypes : ∀ l, args.dtypes ≠ .mapping l

end Rxls
