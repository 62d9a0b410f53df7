import Verif.Model.Recs

/-!
# Escaped characters in texts of XLSX parts

ECMA-376 part 1, 22.9.2.19 (`ST_Xstring`): a character that XML cannot hold is written `_xHHHH_`, where `HHHH` is its
code in hexadecimal; an underscore that would begin such a sequence is written `_x005F_`.
-/

namespace Rxls

/-- The value of a hexadecimal digit. -/
def hexVal (c : Char) : Option Nat :=
  if '0' ≤ c ∧ c ≤ '9' then some (c.toNat - 48)
  else if 'A' ≤ c ∧ c ≤ 'F' then some (c.toNat - 55)
  else if 'a' ≤ c ∧ c ≤ 'f' then some (c.toNat - 87)
  else none

/-- Four hexadecimal digits. -/
def hex4 (a b c d : Char) : Option Nat :=
  match hexVal a, hexVal b, hexVal c, hexVal d with
  | some a, some b, some c, some d => some (4096 * a + 256 * b + 16 * c + d)
  | _, _, _, _ => none

/-- The character that an escape sequence at the start of the text stands for. -/
def escapedChar : Str → Option Char
  | '_' :: 'x' :: a :: b :: c :: d :: '_' :: _ => (hex4 a b c d).bind fun n => if n.isValidChar then some (Char.ofNat n) else none
  | _ => none

/-- The text that is meant, after the given number of characters. -/
def meantFrom : Nat → Str → Str
  | _, [] => []
  | n + 1, _ :: s => meantFrom n s
  | 0, c :: s =>
    match escapedChar (c :: s) with
    | some d => d :: meantFrom 6 s
    | none => c :: meantFrom 0 s

/-- The text that is meant. -/
def meant (s : Str) : Str := meantFrom 0 s

/-- A digit. -/
def hexDigit (n : Nat) : Char := Char.ofNat (if n < 10 then 48 + n else 55 + n)

/-- The escape sequence of a character below U+10000. -/
def escapeSeq (c : Char) : Str :=
  ['_', 'x', hexDigit (c.toNat / 4096 % 16), hexDigit (c.toNat / 256 % 16), hexDigit (c.toNat / 16 % 16),
    hexDigit (c.toNat % 16), '_']

/-- An underscore before this text could be taken for the begin of a sequence. -/
def likeEscape : Str → Bool
  | 'x' :: a :: b :: c :: d :: _ => (hex4 a b c d).isSome
  | _ => false

/-- The characters that are written as sequences: control characters other than tab and line feed (a carriage return
would be read as a line feed by XML), U+FFFE, U+FFFF, and an underscore before something that looks like a sequence. -/
def mustEscape (c : Char) (s : Str) : Bool :=
  (c.toNat < 32 && c != '\t' && c != '\n') || c.toNat = 0xFFFE || c.toNat = 0xFFFF || (c = '_' && likeEscape s)

/-- The text as it is written. -/
def stored : Str → Str
  | [] => []
  | c :: s => (if mustEscape c s then escapeSeq c else [c]) ++ stored s

end Rxls
