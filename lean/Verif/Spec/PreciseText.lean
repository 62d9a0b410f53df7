import Verif.Spec.DateText

/-! # Moments written with thousandths of a second, or with AM and PM -/

namespace Rxls

/-- The hour on a clock face: 12, 1, …, 11. -/
def faceHour (h : Nat) : Nat := if h % 12 = 0 then 12 else h % 12

/-- `01:20:30 PM`, or `01:20 PM` when the seconds are zero. -/
def Clock.write12 (seconds : Bool) (c : Clock) : List Char :=
  digits2 (faceHour c.hour) ++ ':' :: digits2 c.minute ++ (if seconds then ':' :: digits2 c.second else []) ++
    [' ', if c.hour < 12 then 'A' else 'P', 'M']

/-- The text writes the moment `ms` (milliseconds from 1970-01-01): a date with four digits for the year, with or
without a time, which may have thousandths of a second or be written with AM and PM; or a time alone, which counts from
midnight. -/
inductive WritesPrecise : List Char → Int → Prop where
  | plain (st : DateStyle) (ts : TimeStyle) (d : Date) (c : Clock) (k : Int) : d.Real → d.year < 10000 →
      DaysFromEpoch d k → c.Real → ts.Fits c → WritesPrecise (st.write d ++ ts.write c) (k * 86400000 + c.millis)
  | thousandths (st : DateStyle) (sep : Char) (d : Date) (c : Clock) (ms : Nat) (k : Int) : d.Real → d.year < 10000 →
      DaysFromEpoch d k → c.Real → (sep = ' ' ∨ sep = 'T') → ms < 1000 →
      WritesPrecise (st.write d ++ sep :: c.write true ++ '.' :: digits3 ms) (k * 86400000 + c.millis + ms)
  | half (st : DateStyle) (sep : Char) (b : Bool) (d : Date) (c : Clock) (k : Int) : d.Real → d.year < 10000 →
      DaysFromEpoch d k → c.Real → (sep = ' ' ∨ sep = 'T') → (b = false → c.second = 0) →
      WritesPrecise (st.write d ++ sep :: c.write12 b) (k * 86400000 + c.millis)
  | clock (b : Bool) (c : Clock) : c.Real → (b = false → c.second = 0) → WritesPrecise (c.write b) c.millis

end Rxls
