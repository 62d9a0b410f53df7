import Verif.Spec.Values

/-! # Rows in which a header is looked for -/

namespace Rxls

/-- The first `size'` rows hold texts only, and none of those from row `size` on matches. -/
def VGrid.Settled (V : VGrid) (f : Str → Bool) (size size' : Nat) : Prop :=
  ∀ k ∈ V.seen, ∀ i < size', ∀ v, cellAt (V.column k) i = some v → ∃ s, v = .str s ∧ (size ≤ i → f s = false)

end Rxls
