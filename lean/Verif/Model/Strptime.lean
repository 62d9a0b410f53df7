import Verif.Model.Recs

/-!
# `_strptime` and `mf_strptime` (`rxls/chunk/casts.py:606-742`)

The library strptime (polars or pyarrow) is a parameter: `sp fmt s` is the timestamp in milliseconds,
or `none` when the string does not match the format.  `_strptime` reads the data buffer of the result
directly, where an unmatched or null entry holds 0.
-/

namespace Rxls

/-- `DEFAULT_TIME_FORMATS` without polars (`casts.py:638-641`). -/
def timeFormatsArrow : List Str := ["%T".toList, "%R".toList]

/-- `DEFAULT_TIME_FORMATS` with polars (`casts.py:609`). -/
def timeFormatsPolars : List Str :=
  ["%T".toList, "%R".toList, "%r".toList, "%I:%M %p".toList, "%T%.f".toList]

/-- `DEFAULT_DATE_FORMATS` (`casts.py:663-674`). -/
def dateFormats : List Str :=
  ["%Y-%m-%d".toList, "%d/%m/%Y".toList, "%d/%m/%y".toList, "%d.%m.%Y".toList, "%d.%m.%y".toList,
   "%d-%m-%Y".toList, "%d-%m-%y".toList]

/-- `DEFAULT_DATETIME_FORMATS` (`casts.py:676-687`). -/
def datetimeFormats (tfs : List Str) : List Str :=
  dateFormats.flatMap fun df =>
    (tfs.flatMap fun tf => [df ++ [' '] ++ tf, df ++ ['T'] ++ tf]) ++ [df]

/-- The format list used when the caller gives none (`casts.py:726-731`). -/
def defaultFormats (tfs : List Str) : List Str := datetimeFormats tfs ++ dateFormats ++ tfs

/-- One element of `_strptime` (`casts.py:611-635`, `643-660`). -/
def strptimeElem (sp : Str → Option Str → Option Int) (fmt : Str) (s : Option Str) : Int :=
  let ret := (sp fmt s).getD 0
  if ret < 0 then ret % 86400000 else ret

/-- `_strptime`.  (`rxls/chunk/casts.py:611-635,643-660`.) -/
def strptimeArr (sp : Str → Option Str → Option Int) (arr : List (Option Str)) (fmt : Str) : List Int :=
  arr.map (strptimeElem sp fmt)

/-- `np.where(result == 0, a, result)`.  (`rxls/chunk/casts.py:735`.) -/
def whereZero (result a : List Int) : List Int :=
  List.zipWith (fun r x => if r = 0 then x else r) result a

/-- The loop of `mf_strptime` (`casts.py:733-737`): `(result, returned early)`. -/
def mfLoop (sp : Str → Option Str → Option Int) (arr : List (Option Str)) :
    List Str → List Int → List Int × Bool
  | [], result => (result, false)
  | fmt :: rest, result =>
    let result := whereZero result (strptimeArr sp arr fmt)
    if result.all (fun r => decide (0 < r)) then (result, true) else mfLoop sp arr rest result

/-- `mf_strptime` (`casts.py:690-742`).  `formats = []` stands for both `None` and an empty sequence
(`if not formats`). -/
def mfStrptime (sp : Str → Option Str → Option Int) (defaults : List Str) (arr : List (Option Str))
    (formats : List Str) (strict : Bool) : Py (List Int) :=
  let formats := if formats.isEmpty then defaults else formats
  let (result, early) := mfLoop sp arr formats (List.replicate arr.length 0)
  if early then .ok result
  else if strict && result.any (fun r => decide (r = 0)) then .error .arrowInvalid
  else .ok result

end Rxls
