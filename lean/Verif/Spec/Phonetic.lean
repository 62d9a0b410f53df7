import Verif.Spec.XlsxParts

/-! # Phonetic guides of shared strings (ISO/IEC 29500-1, 18.4.6) -/

namespace Rxls

/-- A shared string: its text as written in the part (`t`, or runs `r`), and the readings given for pieces of it. -/
structure Guided where
  attrs : List (Str × Str)
  base : List Xml
  /-- attributes of each `rPh` element (`sb`, `eb`) and its text -/
  guides : List (List (Str × Str) × Str)

/-- The `rPh` element. -/
def guideXml (g : List (Str × Str) × Str) : List Xml :=
  [.start ['r', 'P', 'h'] g.1, .start ['t'] [], .text g.2, .close ['t'], .close ['r', 'P', 'h']]

/-- The `si` element with the guides, after the text as the schema has it. -/
def Guided.si (x : Guided) : Si := ⟨x.attrs, x.base ++ x.guides.flatMap guideXml⟩

/-- The `si` element without them. -/
def Guided.bare (x : Guided) : Si := ⟨x.attrs, x.base⟩

end Rxls
