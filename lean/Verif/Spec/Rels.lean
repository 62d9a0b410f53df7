import Verif.Model.Rels

/-! # Which texts XML leaves alone inside a double-quoted attribute value -/

namespace Rxls

/-- No delimiter, no markup, no white space other than the blank, no forbidden character. -/
def XmlClean (v : Str) : Prop :=
  ∀ c ∈ v, c ≠ '"' ∧ c ≠ '<' ∧ c ≠ '&' ∧ 0x20 ≤ c.toNat ∧ c.toNat ≠ 0xFFFE ∧ c.toNat ≠ 0xFFFF

instance (v : Str) : Decidable (XmlClean v) := by unfold XmlClean; infer_instance

end Rxls
