import Verif.Spec.TakeRows

/-! # What row filters leave of a sheet -/

namespace Rxls

/-- The row has a value in one of the columns (`or`); in all of them (`and`); in the first column, combined with the other
columns by the operators of a list, from left to right. -/
def rowKept (st : Strategy) (cols : List Int) (row : List (Int × Val)) : Bool :=
  let has : Int → Bool := fun k => row.any fun p => p.1 = k
  match st with
  | .or => cols.any has
  | .and => cols.all has
  | .ops l =>
    match cols with
    | [] => false
    | k :: ks => (l.zip ks).foldl (fun b p => if p.1 = .and then b && has p.2 else b || has p.2) (has k)
  | .bad => false

/-- `row_filters_strategy` is one of the operators, or a list with an operator between any two of `n` columns. -/
def Strategy.Fits (n : Nat) : Strategy → Prop
  | .or => True
  | .and => True
  | .ops l => l.length + 1 = n ∧ .bad ∉ l
  | .bad => False

/-- The rows that a filter keeps of those from row `top` on. -/
def VGrid.kept (top : Nat) (st : Strategy) (cols : List Int) (g : VGrid) : VGrid :=
  List.filter (rowKept st cols) (g.drop top)

/-- The sheet without the other rows; the rows above `top` stay. -/
def VGrid.filtered (top : Nat) (st : Strategy) (cols : List Int) (g : VGrid) : VGrid := g.take top ++ g.kept top st cols

/-- No value of the column is NaN, which Arrow takes for a missing value, or a text that reads as NaN. -/
def VGrid.NoNaN (env : Env) (g : VGrid) (k : Int) : Prop :=
  ∀ row ∈ g, ∀ p ∈ row, p.1 = k → p.2 ≠ .f8 .nan ∧ ∀ s, p.2 = .str s → env.parseF8 s ≠ some .nan

end Rxls
