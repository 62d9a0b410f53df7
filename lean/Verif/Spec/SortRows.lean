import Verif.Spec.TakeRows

/-! # Sheets with their rows in another order -/

namespace Rxls

/-- The elements at these positions. -/
def pickAt {α : Type} (d : α) (idx : List Nat) (l : List α) : List α := idx.map fun i => l.getD i d

/-- The rows below the first `n` in another order: as row `n + i` the one that was row `n + idx[i]`. -/
def VGrid.reorder (n : Nat) (idx : List Nat) (g : VGrid) : VGrid := g.take n ++ pickAt [] idx (g.drop n)

/-- The positions are those of the rows below the first `n`, each once. -/
def VGrid.Reorders (n : Nat) (idx : List Nat) (g : VGrid) : Prop := idx.Perm (List.range (g.length - n))

end Rxls
