import Verif.Model.Recs

/-!
# Null texts: `ERROR_STRINGS` and `__init__` of both workbook classes
-/

namespace Rxls

/-- The spreadsheet error texts listed in `xlsx.py:46-63` and `xlsb.py:37-55`. -/
def errorTexts : List Str :=
  ["#NULL!".toList, "#DIV/0!".toList, "#VALUE!".toList, "#REF!".toList, "#NAME?".toList, "#NUM!".toList,
   "#N/A".toList, "#GETTING_DATA".toList, "#ДЕЛ/0!".toList, "#ЗНАЧ!".toList, "#ССЫЛКА!".toList,
   "#ИМЯ?".toList, "#ЧИСЛО!".toList, "#Н/Д".toList]

/-- A member of a Python set of strings and bytes; a `str` never equals a `bytes`.
(`rxls/reader/xlsx.py:46-63,107-109` and `rxls/reader/xlsb.py:37-55,80-82`.) -/
inductive PyKey where
  | str (s : Str)
  | bytes (b : Bytes)
  deriving DecidableEq

/-- `ERROR_STRINGS` of the XLSX reader (`xlsx.py:46-63`): strings. -/
def errorStringsXlsx : List PyKey := errorTexts.map .str

/-- `ERROR_STRINGS` of the XLSB reader (`xlsb.py:37-55`): the UTF-16 *encodings* of the texts. -/
def errorStringsXlsb : List PyKey := errorTexts.map fun s => .bytes (encodeUtf16 s)

/-- The `null_values` argument: nothing, a predicate, or a sequence of strings.
(`rxls/reader/xlsx.py:96,101-111` and `rxls/reader/xlsb.py:69,74-84`.) -/
inductive NullArg where
  | none
  | pred (p : Str → Bool)
  | values (l : List Str)

/-- `skip_predicate` (`xlsx.py:100-113`, `xlsb.py:73-86`), the same code over the reader's own
`ERROR_STRINGS`.  The user's predicate is total and pure. -/
def skipPredicate (errors : List PyKey) (arg : NullArg) (s : Str) : Bool :=
  match arg with
  | .none => errors.contains (.str s)
  | .pred p => errors.contains (.str s) || p s
  | .values l => (errors ++ l.map PyKey.str).contains (.str s)

end Rxls
