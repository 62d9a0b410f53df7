import Verif.Spec.Read

/-! # Tables with other types -/

namespace Rxls

/-- The second outcome is the first one with the types asked for.

* If both are tables, they have the same names, a list of types is as long as the list of names, and every array of the
  second is the one of the first with the type asked for its column.
* If only the first is a table, the second is a ValueError, and the list of types has another length or some array cannot
  have the type asked for.
* If the first is an exception, so is the second. -/
def Retypes {A D : Type} (lib : Lib A D) (arg : DtypesArg D) : Py (Table A) → Py (Table A) → Prop
  | .ok T, .ok T' =>
    T'.names = T.names ∧ (∀ l, arg = .sequence l → l.length = T.names.length) ∧ T'.arrays.length = T.arrays.length ∧
      ∀ j, (hj : j < T.arrays.length) → retyped lib T.arrays[j] (wantedType T.names j arg) = T'.arrays[j]?
  | .ok T, .error e =>
    e = .valueError ∧ ((∃ l, arg = .sequence l ∧ l.length ≠ T.names.length) ∨
      ∃ j, ∃ hj : j < T.arrays.length, retyped lib T.arrays[j] (wantedType T.names j arg) = none)
  | .error _, .ok _ => False
  | .error _, .error _ => True

end Rxls
