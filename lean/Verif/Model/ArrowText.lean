import Verif.Model.NumText

/-! # Arrow's cast of a string to float64

`concatenate` casts texts to numbers with it (`rxls/chunk/chunk.py:230-237`, called in `:491`, `:502`).  The rest of the model takes the cast of one
string as a parameter (`Env.parseF8`); here it is, after Arrow's `StringToFloat` (`arrow/util/value_parsing.cc`, pyarrow
14.0.2 of `requirements.txt:5`) with `fast_float::from_chars`: no white space, no plus sign in front, the whole text.
Simplifications: there is no negative zero; `nan(...)` with a parenthesis is refused (fast_float takes it); numbers beyond
the greatest are infinite (later versions refuse them). -/

namespace Rxls

/-- The cast of one string; `none` is ArrowInvalid.  (library behaviour used at `rxls/chunk/chunk.py:235,325`.) -/
def arrowFloatText (s : Str) : Option F64 := if s.head? = some '+' then none else strtod s

end Rxls
