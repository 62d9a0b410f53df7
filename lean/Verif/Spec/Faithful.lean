import Verif.Spec.Values

/-! # What a table shows of a sheet -/

namespace Rxls

/-- A number of the sheet and its value in the table: the double itself; an integer that differs by half a unit of the last
digit asked for and some rounding; or its text. -/
def NumberShown (env : Env) (prec : Nat) (x : F64) : Val → Prop
  | .f8 y => y = x
  | .i8 n => ∃ q : ℚ, x = .fin q ∧ |(n : ℚ) - q| ≤ (1 / 2 + 1 / 2 ^ 40) / 10 ^ prec + |q| / 2 ^ 50
  | .str s => s = env.renderF8 x
  | .ts _ => False

/-- A cell of the sheet and the value in the table. -/
def CellShown (env : Env) (prec : Nat) : Option Val → Option Val → Prop
  | none, none => True
  | some (.f8 x), some v => NumberShown env prec x v
  | some (.str s), some (.str t) => t = s
  | some (.ts n), some (.ts m) => m = n
  | some (.ts n), some (.str t) => t = env.renderTs n
  | _, _ => False

/-- No number is infinite or outside the range of `int64`. -/
def VGrid.InRange (g : VGrid) : Prop := ∀ row ∈ g, ∀ p ∈ row, ∀ x, p.2 = .f8 x → x = .nan ∨ ∃ q : ℚ, x = .fin q ∧ |q| < 2 ^ 63

/-- The table shows the sheet: its columns are those of the sheet, its rows are rows of the sheet in their order. -/
def VGrid.Shows {A D : Type} (env : Env) (lib : Lib A D) (prec : Nat) (g : VGrid) (t : Table A) : Prop :=
  ∃ (rows : List Nat) (arrays : List Arr), rows.Pairwise (· < ·) ∧ t.arrays = arrays.map (fun a => lib.ofFetched (.arr a)) ∧
    arrays.length = g.columns.length ∧
    ∀ (j : Nat) (k : Int) (a : Arr), g.columns[j]? = some k → arrays[j]? = some a → a.vals.length = rows.length ∧
      ∀ (i r : Nat) (v : Option Val), rows[i]? = some r → a.vals[i]? = some v → CellShown env prec (g.at k r) v

end Rxls
