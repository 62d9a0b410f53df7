import Verif.Model.Recs

/-! # What multi-format parsing should do -/

namespace Rxls

/-- The value of the first format that recognises the string. -/
def firstRecognised (sp : Str → Option Str → Option Int) (fmts : List Str) (s : Option Str) :
    Option Int :=
  fmts.findSome? fun f => sp f s

/-- Moments before 1970 are reduced to their time of day. -/
def timeOfDay (v : Int) : Int := if v < 0 then v % 86400000 else v

/-- Bit `i` of an Arrow bit mask (least significant bit first). -/
def arrowBit (buf : Bytes) (i : Nat) : Bool := (buf.getD (i / 8) 0).toNat.testBit (i % 8)

end Rxls
