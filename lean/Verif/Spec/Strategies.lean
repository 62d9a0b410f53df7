import Verif.Model.Read

/-! # What a strategy for the row filters means -/

namespace Rxls

/-- The operators a strategy puts between `n + 1` filters; `none` if it is refused. -/
def Strategy.operators (n : Nat) : Strategy → Option (List RowOp)
  | .or => some (List.replicate n .or)
  | .and => some (List.replicate n .and)
  | .ops l => if l.length = n ∧ .bad ∉ l then some l else none
  | .bad => none

/-- The second strategy is the first one with some (or no, or all) of the `and`s replaced by `or`s. -/
def Strategy.LooserBy (n : Nat) (s t : Strategy) : Prop :=
  ∃ l l', s.operators n = some l ∧ t.operators n = some l' ∧ List.Forall₂ (fun a b => a = b ∨ b = .or) l l'

/-- Two masks of the same rows, the second one keeping every row that the first one keeps. -/
def Within (a b : List Bool) : Prop := a.length = b.length ∧ ∀ i : Nat, a[i]? = some true → b[i]? = some true

end Rxls
