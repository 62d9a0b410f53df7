import Verif.Model.F64
import Verif.Spec.NumText

/-! # Texts that write numbers -/

namespace Rxls

/-- The text writes a number: a decimal number, which stands for the nearest binary64 number, or a word for infinity or for no
number in letters of any case. -/
inductive WritesNumber : List Char → F64 → Prop where
  | decimal (d : Decimal) : d.Ok → WritesNumber d.text (rnd d.value)
  | infinity (sign : Option Bool) (w : List Char) :
      w.map Char.toLower = ['i', 'n', 'f'] ∨ w.map Char.toLower = ['i', 'n', 'f', 'i', 'n', 'i', 't', 'y'] →
      WritesNumber (signText sign ++ w) (.inf (decide (sign = some true)))
  | nan (sign : Option Bool) (w : List Char) : w.map Char.toLower = ['n', 'a', 'n'] → WritesNumber (signText sign ++ w) .nan

/-- Every underscore stands between two digits. -/
def BetweenDigits (s : List Char) : Prop :=
  ∀ a b, s = a ++ '_' :: b → (∃ c, a.getLast? = some c ∧ c.isDigit = true) ∧ ∃ c, b.head? = some c ∧ c.isDigit = true

end Rxls
