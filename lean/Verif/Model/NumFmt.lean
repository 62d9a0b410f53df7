import Verif.Model.Recs

/-!
# Number format codes: `re_xt` and `re_dt` (`xlsx.py:37-38`, `xlsb.py:34-35`)

Python's backtracking matcher on these two patterns, written out as functions on the text.
-/

namespace Rxls

/-- `.*?"` after an opening quote: up to the first quote; `.` does not match a line feed.  Returns the
text after the closing quote.  (`rxls/reader/xlsx.py:38`.) -/
def afterQuote : Str → Option Str
  | [] => none
  | c :: s => if c = '"' then some s else if c = '\n' then none else afterQuote s

/-- `[^\]]*\]`: up to the first closing bracket.  (`rxls/reader/xlsx.py:38`.) -/
def afterBracket : Str → Option Str
  | [] => none
  | c :: s => if c = ']' then some s else afterBracket s

/-- `(?:hh?|mm?|ss?)\]` at the start of the text.  (`rxls/reader/xlsx.py:38`.) -/
def isClock : Str → Bool
  | 'h' :: ']' :: _ => true
  | 'h' :: 'h' :: ']' :: _ => true
  | 'm' :: ']' :: _ => true
  | 'm' :: 'm' :: ']' :: _ => true
  | 's' :: ']' :: _ => true
  | 's' :: 's' :: ']' :: _ => true
  | _ => false

/-- A match of `re_xt` at the start of the text: the text after it.  (`rxls/reader/xlsx.py:38`.) -/
def xtMatch : Str → Option Str
  | '"' :: s => afterQuote s
  | '[' :: s => if isClock s then none else afterBracket s
  | _ => none

/-- `re_xt.sub("", s)`: matches are removed from left to right, other characters are kept.  `fuel` bounds the
number of steps (one character at least each).  (`rxls/reader/xlsx.py:232`.) -/
def xtSubFuel : Nat → Str → Str
  | 0, _ => []
  | _ + 1, [] => []
  | n + 1, c :: s =>
    match xtMatch (c :: s) with
    | some rest => xtSubFuel n rest
    | none => c :: xtSubFuel n s

@[inherit_doc xtSubFuel] def xtSub (s : Str) : Str := xtSubFuel s.length s

/-- `[dmhysDMHYS]`.  (`rxls/reader/xlsx.py:37`.) -/
def isDtChar (c : Char) : Bool :=
  ['d', 'm', 'h', 'y', 's', 'D', 'M', 'H', 'Y', 'S'].contains c

/-- `re_dt.search`: such a letter not directly after a backslash; `prev` is the character before.
(`rxls/reader/xlsx.py:37,232`.) -/
def dtSearchFrom : Char → Str → Bool
  | _, [] => false
  | prev, c :: s => (isDtChar c && prev != '\\') || dtSearchFrom c s

@[inherit_doc dtSearchFrom] def dtSearch (s : Str) : Bool := dtSearchFrom ' ' s

/-- `re_dt.search(re_xt.sub("", fmt))` (`xlsx.py:232`, `xlsb.py:172`). -/
def fmtTemporal (fmt : Str) : Bool := dtSearch (xtSub fmt)

/-- `s.split(";", 1)[0]`.  (`rxls/reader/xlsx.py:215` and `rxls/reader/xlsb.py:161`.) -/
def beforeSemicolon (s : Str) : Str := s.takeWhile (· ≠ ';')

/-- `TEMPORAL_STYLES` (`xlsx.py:82-84`, `xlsb.py:57-59`). -/
def temporalStyles : List Nat := [0x0E, 0x0F, 0x10, 0x11, 0x12, 0x13, 0x14, 0x15, 0x16, 0x2D, 0x2E, 0x2F]

/-- `NUMERIC_STYLES` (`xlsx.py:86`). -/
def numericStyles : List Nat := [0x01, 0x02, 0x03, 0x04, 0x25, 0x26, 0x27, 0x28, 0x30]

/-- `t in s` for strings.  (`rxls/reader/xlsx.py:229`.) -/
def hasSub (t : Str) : Str → Bool
  | [] => t.isEmpty
  | c :: s => t.isPrefixOf (c :: s) || hasSub t s

end Rxls
