import Verif.Spec.F64

/-! # RK numbers as MS-XLSB 2.5.123 defines them -/

namespace Rxls

/-- 30-bit two's complement. -/
def signed30 (n : Nat) : Int := if n < 2 ^ 29 then n else (n : Int) - 2 ^ 30

/-- The value of an `RkNumber`: bit 0 is `fX100`, bit 1 is `fInt`, the other 30 bits are `num`, a signed
integer or the 30 most significant bits of a double whose 34 other bits are zero. -/
def rkValue (w : Nat) : F64 :=
  let num := w / 4
  let v : F64 := if w / 2 % 2 = 1 then .fin (signed30 num) else F64.ofBits (num * 2 ^ 34)
  if w % 2 = 1 then F64.div v (.fin 100) else v

/-- A double: NaN, an infinity or a representable rational. -/
def F64.Valid : F64 → Prop
  | .fin q => IsF64 q
  | _ => True

end Rxls
