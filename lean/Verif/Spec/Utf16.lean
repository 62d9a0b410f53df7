import Verif.Model.Recs

/-! # Specification vocabulary for UTF-16 (Unicode standard, section 3.9) -/

namespace Rxls

/-- UTF-16 code units of a scalar value. -/
def units16 (c : Char) : List Nat :=
  if c.toNat < 0x10000 then [c.toNat]
  else
    let v := c.toNat - 0x10000
    [0xD800 + v / 1024, 0xDC00 + v % 1024]

/-- UTF-16 code units of a string. -/
def utf16 (s : Str) : List Nat := s.flatMap units16

/-- UTF-16LE serialisation of a string. -/
def utf16LE (s : Str) : Bytes :=
  (utf16 s).flatMap fun w => [UInt8.ofNat (w % 256), UInt8.ofNat (w / 256)]

/-- UTF-16BE serialisation of a string. -/
def utf16BE (s : Str) : Bytes :=
  (utf16 s).flatMap fun w => [UInt8.ofNat (w / 256), UInt8.ofNat (w % 256)]

/-- 32-bit little-endian field. -/
def le32 (n : Nat) : Bytes :=
  [UInt8.ofNat (n % 256), UInt8.ofNat (n / 256 % 256),
   UInt8.ofNat (n / 65536 % 256), UInt8.ofNat (n / 16777216 % 256)]

/-- MS-XLSB `XLWideString` (2.5.168): length in code units, then the code units. -/
def wideString (s : Str) : Bytes := le32 (utf16 s).length ++ utf16LE s

/-- The string does not begin with a byte order mark, in either byte order. -/
def NoMark (s : Str) : Prop := ∀ c t, s = c :: t → c.toNat ≠ 0xFEFF ∧ c.toNat ≠ 0xFFFE

end Rxls
