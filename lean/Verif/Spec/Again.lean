import Verif.Spec.Stored

/-! # A column that was read, to be stored again -/

namespace Rxls

/-- The elements of an array, by its type. -/
def Arr.stored (a : Arr) : SColumn :=
  match a.dtype with
  | .utf8 => .texts (a.vals.map fun v => v.bind fun | .str s => some s | _ => none)
  | .i8 => .wholes (a.vals.map fun v => v.bind fun | .i8 n => some n | _ => none)
  | .f8 => .numbers (a.vals.map fun v => v.bind fun | .f8 x => some x | _ => none)
  | .ts => .moments (a.vals.map fun v => v.bind fun | .ts n => some n | _ => none)

/-- Values as cells hold them: texts, numbers, moments (integers are made by the reader). -/
def VGrid.Plain (g : VGrid) : Prop := ∀ row ∈ g, ∀ p ∈ row, ∀ n, p.2 ≠ .i8 n

/-- The table with these names and arrays. -/
def storedTable (names : List Str) (arrays : List Arr) (rows : Nat) : STable := ⟨names.zip (arrays.map Arr.stored), rows⟩

end Rxls
