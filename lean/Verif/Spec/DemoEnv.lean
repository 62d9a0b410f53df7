import Verif.Model.Chunk

/-!
# A small concrete environment, for examples and counterexamples only
-/

namespace Rxls

/-- Value of a non-empty run of decimal digits. -/
def demoNat (s : Str) : Option Nat :=
  if s.isEmpty || !s.all Char.isDigit then none
  else some (s.foldl (fun a c => 10 * a + (c.toNat - '0'.toNat)) 0)

/-- Numbers are runs of digits, moments are rendered as `T` and their milliseconds, and the only text
that is a date is `D1`, 2 January 1970. -/
def demoEnv : Env where
  parseF8 s := (demoNat s).map fun n => .fin n
  parseI8 s := (demoNat s).map fun n => n
  parseTs _ := none
  pyFloat s := (demoNat s).map fun n => .fin n
  pyInt s := demoNat s
  renderF8 x := match x with
    | .fin q => Nat.toDigits 10 q.num.toNat
    | _ => ['n', 'a', 'n']
  renderI8 n := Nat.toDigits 10 n.toNat
  renderTs n := 'T' :: Nat.toDigits 10 n.toNat
  strptime _ s := if s = some ['D', '1'] then some 86400000 else none
  formats := [['f']]

end Rxls
