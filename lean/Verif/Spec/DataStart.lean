import Verif.Spec.Values

/-! # Where the data of a table start -/

namespace Rxls

/-- The same arrays under some names, or the same exception. -/
def SameData {A : Type} : Py (Table A) → Py (Table A) → Prop
  | .ok T, .ok T' => T'.arrays = T.arrays ∧ T'.names.length = T.names.length
  | .error e, .error e' => e' = e
  | _, _ => False

/-- The arguments without header, without looking for it, and with `n` rows to skip. -/
def ReadArgs.from {D : Type} (args : ReadArgs D) (n : Int) : ReadArgs D :=
  { args with header := .rows 0, lookup := .none, skipAfter := n }

end Rxls
