import Verif.Model.StrptimeLib

/-!
# The text of a moment (`unsafe_cast`, `rxls/chunk/arrow.py:73-75`, to text)

`pc.cast(arr, pa.large_string())` of a `timestamp[ms]` array without a time zone: Arrow's `StringFormatter<TimestampType>`
writes `YYYY-MM-DD HH:MM:SS.mmm`, with the date computed by `civil_from_days` of its date library.  Not code of this
project: part of the trusted base, used to instantiate `Env.renderTs` (`Model/Chunk`), which is called when a column
of moments becomes a column of text.
Simplification: years 0 to 9999 (`int64` milliseconds reach further; Arrow prints those years with a sign or more digits).
-/

namespace Rxls

/-- Year of the era, from the day of the era.  (library behaviour used at `rxls/chunk/chunk.py:302`.) -/
def yearOfEra (doe : Nat) : Nat := (doe - doe / 1460 + doe / 36524 - doe / 146096) / 365

/-- The date of a day counted from 1970-01-01 (`civil_from_days` of the date library in Arrow): year, month, day.
(library behaviour used at `rxls/chunk/chunk.py:302`.) -/
def civilFromDays (n : Int) : Int × Nat × Nat :=
  let z := n + 719468
  let era := z / 146097
  let doe := (z - era * 146097).toNat
  let yoe := yearOfEra doe
  let doy := doe - (365 * yoe + yoe / 4 - yoe / 100)
  let mp := (5 * doy + 2) / 153
  let d := doy - (153 * mp + 2) / 5 + 1
  let m := if mp < 10 then mp + 3 else mp - 9
  let y : Int := yoe + era * 400
  (if m ≤ 2 then y + 1 else y, m, d)

/-- A number with `n` decimal digits (`FormatTwoDigits` and the like in Arrow's `formatting.h`).
(library behaviour used at `rxls/chunk/chunk.py:302`.) -/
def padDigits : Nat → Nat → Str
  | 0, _ => []
  | n + 1, v => padDigits n (v / 10) ++ [Char.ofNat (48 + v % 10)]

/-- The text of a `timestamp[ms]`.  (library behaviour used at `rxls/chunk/chunk.py:302`.) -/
def arrowRenderTs (ms : Int) : Str :=
  let day := ms / 86400000
  let t := (ms % 86400000).toNat
  let c := civilFromDays day
  padDigits 4 c.1.toNat ++ '-' :: padDigits 2 c.2.1 ++ '-' :: padDigits 2 c.2.2 ++ ' ' ::
    padDigits 2 (t / 3600000) ++ ':' :: padDigits 2 (t / 60000 % 60) ++ ':' :: padDigits 2 (t / 1000 % 60) ++ '.' ::
    padDigits 3 (t % 1000)

end Rxls
