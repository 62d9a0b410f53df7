import Verif.Model.ReadXlsx

/-! # Blanks around a text -/

namespace Rxls

/-- The characters that Unicode counts as white space (and the four separators U+001C to U+001F), by code point. -/
def blankCodes : List Nat :=
  [0x09, 0x0A, 0x0B, 0x0C, 0x0D, 0x1C, 0x1D, 0x1E, 0x1F, 0x20, 0x85, 0xA0, 0x1680, 0x2000, 0x2001, 0x2002, 0x2003, 0x2004,
    0x2005, 0x2006, 0x2007, 0x2008, 0x2009, 0x200A, 0x2028, 0x2029, 0x202F, 0x205F, 0x3000]

/-- A string of blanks. -/
def AllBlank (s : Str) : Prop := ∀ c ∈ s, c.toNat ∈ blankCodes

/-- The text neither begins nor ends with a blank. -/
def NoOuterBlank (s : Str) : Prop := ∀ c, (s.head? = some c ∨ s.getLast? = some c) → c.toNat ∉ blankCodes

/-- Two texts differ in the blanks at their ends at most. -/
def SameCore (s s' : Str) : Prop :=
  ∃ core a b a' b', s = a ++ core ++ b ∧ s' = a' ++ core ++ b' ∧ AllBlank a ∧ AllBlank b ∧ AllBlank a' ∧ AllBlank b'

/-- Two events differ in the blanks at the ends of a text at most. -/
inductive Xml.SameCore : Xml → Xml → Prop
  | same (e : Xml) : Xml.SameCore e e
  | text {s s' : Str} (h : Rxls.SameCore s s') : Xml.SameCore (.text s) (.text s')

/-- Two parts differ in the blanks at the ends of texts at most. -/
def XmlDoc.SameCore (d d' : XmlDoc) : Prop := d.bad = d'.bad ∧ List.Forall₂ Xml.SameCore d.events d'.events

end Rxls
