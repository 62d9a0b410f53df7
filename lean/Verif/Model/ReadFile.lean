import Verif.Model.ReadXlsx

/-! # `read` itself -/

namespace Rxls

/-- A zip archive: the names of its entries and what the two readers find in it.  The parts of the other format are
not looked at.  (`rxls/reader/common.py:139-151`.) -/
structure Package where
  names : List Str
  xlsx : XlsxFile
  xlsb : XlsbFile

/-- The `datetime_formats` argument.  (`rxls/reader/common.py:127,153-154`.) -/
inductive FormatsArg where
  | none
  | one (s : Str)
  | many (l : List Str)
  deriving DecidableEq

/-- `datetime_formats` as the columns get it (`common.py:153-154`).  `None` and the empty tuple both become the empty
list: `mf_strptime` (`casts.py:727-731`) uses its own formats when there are none. -/
def FormatsArg.toList : FormatsArg → List Str
  | .none => []
  | .one s => [s]
  | .many l => l

/-- `no`, `temporal`, `numeric`, `all`.  (`rxls/reader/common.py:129` and `rxls/series.py:65-66`.) -/
def strNo : Str := ['n', 'o']
@[inherit_doc strNo] def strTemporal : Str := ['t', 'e', 'm', 'p', 'o', 'r', 'a', 'l']
@[inherit_doc strNo] def strNumeric : Str := ['n', 'u', 'm', 'e', 'r', 'i', 'c']
@[inherit_doc strNo] def strAll : Str := ['a', 'l', 'l']

/-- The options of every column (`common.py:169-175`, `series.py`: `conflict_resolve in {"temporal", "all"}`,
`conflict_resolve in {"numeric", "all"}`). -/
def concatOpts (conflict : Str) (formats : FormatsArg) (prec : Nat) : ConcatOpts :=
  ⟨[strTemporal, strAll].contains conflict, [strNumeric, strAll].contains conflict, formats.toList, prec⟩

/-- All arguments of `read` that matter (`common.py:98-136`); `utf8_type_infers` is not used by the code and
`row_callback` has no influence on the table. -/
structure FileArgs (D : Type) where
  iter : IterArgs := {}
  table : ReadArgs D := {}
  precision : Nat := 6
  formats : FormatsArg := .none
  conflict : Str := strNo
  nulls : NullArg := .none

/-- `read` (`common.py:98-339`).  `float_precision` is not negative here. -/
def readFile {A D : Type} (env : Env) (lib : Lib A D) (search : Str → Option (Str → Bool))
    (reMatch : Str → Str → Py Bool) (toInt : Str → Option Int) (a : FileArgs D) (p : Package) : Py (Table A) :=
  match fileKind p.names with
  | .error e => .error e
  | .ok .xlsx =>
    readXlsx env lib search reMatch toInt (skipPredicate errorStringsXlsx a.nulls)
      (concatOpts a.conflict a.formats a.precision) a.iter a.table p.xlsx
  | .ok .xlsb =>
    readXlsb env lib search reMatch (skipPredicate errorStringsXlsb a.nulls)
      (concatOpts a.conflict a.formats a.precision) a.iter a.table p.xlsb

end Rxls
