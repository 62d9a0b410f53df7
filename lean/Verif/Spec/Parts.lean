import Verif.Spec.Values

/-! # A column in two parts -/

namespace Rxls

/-- The type of a column whose parts have values and these types: the same type stays, integers and floats are floats,
everything else is text. -/
def DType.joined (a b : DType) : DType :=
  if a = b then a
  else if (a = .i8 ∧ b = .f8) ∨ (a = .f8 ∧ b = .i8) then .f8
  else .utf8

/-- The first rows of a sheet. -/
abbrev VGrid.top (g : VGrid) (m : Nat) : VGrid := g.take m

/-- There is a value in an array. -/
def Arr.HasValue (a : Arr) : Prop := ∃ v, some v ∈ a.vals

/-- The third array is that of a column whose parts have the first two: of the same type, it is their concatenation; a part
without values adds its rows; else the types join. -/
structure Arr.Joins (x y z : Arr) : Prop where
  same : x.dtype = y.dtype → z = ⟨x.dtype, x.vals ++ y.vals⟩
  left : ¬x.HasValue → z = ⟨y.dtype, x.vals ++ y.vals⟩
  right : ¬y.HasValue → z = ⟨x.dtype, x.vals ++ y.vals⟩
  join : x.HasValue → y.HasValue → z.dtype = x.dtype.joined y.dtype
  rows : z.vals.length = x.vals.length + y.vals.length

/-- Three tables with the same names, where the columns of the third are made of those of the others. -/
def TableJoins {A D : Type} (lib : Lib A D) (t₁ t₂ t : Table A) : Prop :=
  t₁.names = t.names ∧ t₂.names = t.names ∧
  ∃ x y z : List Arr, t₁.arrays = x.map (fun a => lib.ofFetched (.arr a)) ∧ t₂.arrays = y.map (fun a => lib.ofFetched (.arr a)) ∧
    t.arrays = z.map (fun a => lib.ofFetched (.arr a)) ∧ x.length = t.names.length ∧ y.length = t.names.length ∧
    z.length = t.names.length ∧
    ∀ (j : Nat) (a b c : Arr), x[j]? = some a → y[j]? = some b → z[j]? = some c → a.Joins b c

end Rxls
